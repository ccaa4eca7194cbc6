import Verif.Lemmas.State
import Verif.Lemmas.Blas2
import Mathlib.Tactic.Abel

/-! # Triangular solves with one right-hand side -/

namespace StdBLAS
open Finset
variable {α : Type} {h h0 : Heap α}

/-- Positions of row `i` that a solve with triangle `t` subtracts. -/
def restOf : Triangle → Nat → Nat → List Nat
  | .upper, n, i => List.range' (i + 1) (n - (i + 1))
  | .lower, _, i => List.range' 0 i

theorem mem_restOf {t : Triangle} {n i j : Nat} (hi : i < n) :
    j ∈ restOf t n i ↔ j < n ∧ j ≠ i ∧ t.region i j := by
  cases t <;> simp only [restOf, List.mem_range'_1, Triangle.region] <;> omega

theorem restOf_nodup {t : Triangle} {n i : Nat} : (restOf t n i).Nodup := by
  cases t <;> exact List.nodup_range' (step := 1)

/-- One row of a substitution, in the order of the code. -/
def subRow [Sub α] [Mul α] (divide : α → α → α) (t : Triangle) (d : Diag) (n : Nat)
    (a : Nat → Nat → α) (g v : Nat → α) (i : Nat) : α :=
  let s := (restOf t n i).foldl (fun s j => s - a i j * v j) (g i)
  if d = .explicit then divide s (a i i) else s

theorem foldl_congr_mem {ι σ : Type} {l : List ι} {f g : σ → ι → σ}
    (e : ∀ s, ∀ i ∈ l, f s i = g s i) : ∀ s, l.foldl f s = l.foldl g s := by
  induction l with
  | nil => intro s; rfl
  | cons i l ih =>
    intro s
    rw [List.foldl_cons, List.foldl_cons, e s i (by simp)]
    exact ih (fun s k hk => e s k (by simp [hk])) _

theorem subRow_congr [Sub α] [Mul α] {divide : α → α → α} {t : Triangle} {d : Diag} {n : Nat}
    {a : Nat → Nat → α} {g v w : Nat → α} {i : Nat}
    (e : ∀ j ∈ restOf t n i, v j = w j) :
    subRow divide t d n a g v i = subRow divide t d n a g w i := by
  unfold subRow
  rw [foldl_congr_mem (g := fun s j => s - a i j * w j) fun s j hj => by rw [e j hj]]

/-- The body of the solve loops. -/
def trsvBody [Sub α] [Mul α] (divide : α → α → α) (A : MatV α) (t : Triangle) (d : Diag)
    (B : VecV α) (X : Vec) (i : Nat) : Prog α Unit := do
  let b ← B.get i
  let s ← foldEach (restOf t A.cols i) b fun s j => do
    let a ← A.get i j
    let xj ← X.get j
    pure (s - a * xj)
  if d = .explicit then do
    let a ← A.get i i
    X.set i (divide s a)
  else X.set i s

theorem trsvBody_ends [Sub α] [Mul α] {divide : α → α → α} {A : MatV α} {t : Triangle} {d : Diag}
    {B : VecV α} {X : Vec} {a : Nat → Nat → α} {g u : Nat → α} {i : Nat} {h1 : Heap α}
    (hA : A.HoldsOn h (triRegion t d) a) (hB : B.Holds h g) (hi : i < A.rows)
    (hsq : A.rows = A.cols) (hext : A.rows = X.ext) (hBe : A.rows ≤ B.ext) (hu : X.Unique)
    (hAX : Apart (A.toMat.CellOn (triRegion t d)) X.Cell) (hBX : B.toVec.Aligned X)
    (hb : X.Becomes h h1 u) (hold : h1 (X.addr i) = h (X.addr i)) :
    Ends (trsvBody divide A t d B X i) h1 fun _ h' =>
      X.Becomes h h' (Function.update u i (subRow divide t d A.cols a g u i)) := by
  unfold trsvBody
  obtain ⟨v, hv, ev⟩ := hB i (by omega)
  have hA1 := hA.of_onlyChanges hAX hb.2
  rw [ends_bind, ends_vecV_get]
  refine ⟨by omega, v, ?_, ?_⟩
  · rw [← hv]; exact hBX.read hb.2 (by omega) fun _ => hold
  rw [ev, ends_bind]
  refine (ends_foldEach_read (fun s j => s - a i j * u j) ?_).mono ?_
  · intro j hj s
    obtain ⟨hjn, hji, hr⟩ := (mem_restOf (by omega)).1 hj
    rw [ends_bind, hA1.get_iff hi hjn ⟨hr, fun _ => Ne.symm hji⟩, ends_bind,
      hb.1.get_iff (by omega), ends_pure]
    exact ⟨rfl, rfl⟩
  · rintro s h' ⟨rfl, rfl⟩
    unfold subRow
    cases d with
    | explicit =>
      simp only [if_true]
      rw [ends_bind, hA1.get_iff hi (by omega) ⟨by cases t <;> simp [Triangle.region], by simp⟩]
      exact hb.set hu (by omega) _
    | implicitUnit =>
      simp only [reduceCtorEq, if_false]
      exact hb.set hu (by omega) _

theorem trsv_fold [Sub α] [Mul α] (divide : α → α → α) {A : MatV α} {t : Triangle} {d : Diag}
    {B : VecV α} {X : Vec} {a : Nat → Nat → α} {g : Nat → α}
    (hA : A.HoldsOn h (triRegion t d) a) (hB : B.Holds h g) (hX : X.Alloc h)
    (hsq : A.rows = A.cols) (hext : A.rows = X.ext) (hBe : A.rows ≤ B.ext) (hu : X.Unique)
    (hAX : Apart (A.toMat.CellOn (triRegion t d)) X.Cell) (hBX : B.toVec.Aligned X) :
    Ends (trsv divide A t d B X) h fun _ h' => ∃ v, X.Becomes h h' v ∧
      ∀ i, i < A.rows → v i = subRow divide t d A.cols a g v i := by
  by_cases hne : A.rows = 0
  · have hx : X.Holds h g := fun i hi => by omega
    unfold trsv
    cases t with
    | upper =>
      show Ends (trsvUpper divide A d B X) h _
      unfold trsvUpper
      rw [hne]
      exact ends_pure.2 ⟨g, Vec.Becomes.refl hx, by omega⟩
    | lower =>
      show Ends (trsvLower divide A d B X) h _
      unfold trsvLower
      rw [hne]
      exact ends_pure.2 ⟨g, Vec.Becomes.refl hx, by omega⟩
  obtain ⟨w, _⟩ := hX 0 (by omega)
  obtain ⟨f, hf⟩ := hX.exists_holds fun _ => w
  unfold trsv
  cases t with
  | upper =>
    have key := ends_forDown_inv (n := A.rows) (h := h)
      (body := trsvBody divide A .upper d B X)
      (fun m h' => ∃ v, X.Becomes h h' v ∧ (∀ i, i < m → i < X.ext → v i = f i) ∧
        ∀ i, m ≤ i → i < A.rows → v i = subRow divide .upper d A.cols a g v i) ?_
      ⟨f, Vec.Becomes.refl hf, fun _ _ _ => rfl, by omega⟩
    · refine Ends.mono key ?_
      rintro _ h' ⟨v, hb, _, hv⟩
      exact ⟨v, hb, fun i hi => hv i (by omega) hi⟩
    · rintro k hk h1 ⟨v, hb, hold, hv⟩
      refine (trsvBody_ends hA hB hk hsq hext hBe hu hAX hBX hb ?_).mono ?_
      · rw [hb.1 k (by omega), hf k (by omega), hold k (by omega) (by omega)]
      · intro _ h' hb'
        refine ⟨_, hb', fun i h1 h2 => ?_, fun i h1 h2 => ?_⟩
        · rw [Function.update_of_ne (by omega)]; exact hold i (by omega) h2
        · have hc : subRow divide .upper d A.cols a g
              (Function.update v k (subRow divide .upper d A.cols a g v k)) i =
                subRow divide .upper d A.cols a g v i := by
            refine subRow_congr fun j hj => ?_
            have := (mem_restOf (by omega)).1 hj
            simp only [Triangle.region] at this
            rw [Function.update_of_ne (by omega)]
          rw [hc]
          by_cases e : i = k
          · subst e; rw [Function.update_self]
          · rw [Function.update_of_ne e]; exact hv i (by omega) h2
  | lower =>
    have key := ends_forUp_inv (lo := 0) (hi := A.rows) (h := h)
      (body := trsvBody divide A .lower d B X)
      (fun m h' => ∃ v, X.Becomes h h' v ∧ (∀ i, m ≤ i → i < X.ext → v i = f i) ∧
        ∀ i, i < m → v i = subRow divide .lower d A.cols a g v i) (Nat.zero_le _) ?_
      ⟨f, Vec.Becomes.refl hf, fun _ _ _ => rfl, by omega⟩
    · refine Ends.mono key ?_
      rintro _ h' ⟨v, hb, _, hv⟩
      exact ⟨v, hb, fun i hi => hv i hi⟩
    · rintro k _ hk h1 ⟨v, hb, hold, hv⟩
      refine (trsvBody_ends hA hB hk hsq hext hBe hu hAX hBX hb ?_).mono ?_
      · rw [hb.1 k (by omega), hf k (by omega), hold k (by omega) (by omega)]
      · intro _ h' hb'
        refine ⟨_, hb', fun i h1 h2 => ?_, fun i h1 => ?_⟩
        · rw [Function.update_of_ne (by omega)]; exact hold i (by omega) h2
        · have hc : subRow divide .lower d A.cols a g
              (Function.update v k (subRow divide .lower d A.cols a g v k)) i =
                subRow divide .lower d A.cols a g v i := by
            refine subRow_congr fun j hj => ?_
            have := (mem_restOf (by omega)).1 hj
            simp only [Triangle.region] at this
            rw [Function.update_of_ne (by omega)]
          rw [hc]
          by_cases e : i = k
          · subst e; rw [Function.update_self]
          · rw [Function.update_of_ne e]; exact hv i (by omega)

/-- A substitution has one result. -/
theorem subRow_unique [Sub α] [Mul α] {divide : α → α → α} {t : Triangle} {d : Diag} {n : Nat}
    {a : Nat → Nat → α} {g v w : Nat → α}
    (hv : ∀ i, i < n → v i = subRow divide t d n a g v i)
    (hw : ∀ i, i < n → w i = subRow divide t d n a g w i) : ∀ i, i < n → v i = w i := by
  cases t with
  | lower =>
    intro i
    induction i using Nat.strong_induction_on with
    | _ i ih =>
      intro hi
      rw [hv i hi, hw i hi]
      refine subRow_congr fun j hj => ?_
      have := (mem_restOf hi).1 hj
      simp only [Triangle.region] at this
      exact ih j (by omega) (by omega)
  | upper =>
    have H : ∀ k i, i < n → n - i ≤ k → v i = w i := by
      intro k
      induction k with
      | zero => omega
      | succ k ih =>
        intro i hi hk
        rw [hv i hi, hw i hi]
        refine subRow_congr fun j hj => ?_
        have := (mem_restOf hi).1 hj
        simp only [Triangle.region] at this
        exact ih j (by omega) (by omega)
    exact fun i hi => H n i hi (by omega)

/-! ## What a substitution computes, in a ring -/

theorem foldl_sub_eq [AddCommGroup α] {ι : Type} [DecidableEq ι] (t : ι → α) (l : List ι)
    (hl : l.Nodup) : ∀ s, l.foldl (fun s j => s - t j) s = s - ∑ j ∈ l.toFinset, t j := by
  induction l with
  | nil => intro s; simp
  | cons i l ih =>
    intro s
    rw [List.nodup_cons] at hl
    rw [List.foldl_cons, ih hl.2, List.toFinset_cons, sum_insert (by simpa using hl.1)]
    abel

/-- Row `i` of `T v`: the diagonal term plus the terms the solve subtracts. -/
theorem mulVec_tri_row [NonAssocRing α] {t : Triangle} {d : Diag} {n i : Nat} {a : Nat → Nat → α}
    {v : Nat → α} (hi : i < n) :
    mulVec n (triOf t d a) v i =
      triOf t d a i i * v i + ∑ j ∈ (restOf t n i).toFinset, a i j * v j := by
  rw [← tri_row_split hi]
  congr 1
  unfold psum
  classical
  have e : (restOf t n i).toFinset = (range n).filter fun j => i ≠ j ∧ t.region i j := by
    ext j
    simp only [mem_filter, mem_range, List.mem_toFinset]
    rw [mem_restOf hi]
    constructor
    · rintro ⟨a, b, c⟩; exact ⟨a, Ne.symm b, c⟩
    · rintro ⟨a, b, c⟩; exact ⟨a, Ne.symm b, c⟩
  rw [e, sum_filter]
  refine sum_congr rfl fun j _ => ?_
  by_cases hp : i ≠ j ∧ t.region i j
  · rw [if_pos hp, if_pos hp]
  · rw [if_neg hp, if_neg hp]

/-- A substitution solves the triangular system, and every solution is a substitution. -/
theorem subRow_iff [NonAssocRing α] {divide : α → α → α} {t : Triangle} {d : Diag} {n : Nat}
    {a : Nat → Nat → α} {g v : Nat → α}
    (hdiv : d = .explicit → ∀ i, i < n → ∀ s,
      a i i * divide s (a i i) = s ∧ divide (a i i * s) (a i i) = s) {i : Nat} (hi : i < n) :
    v i = subRow divide t d n a g v i ↔ mulVec n (triOf t d a) v i = g i := by
  rw [mulVec_tri_row hi]
  unfold subRow
  rw [foldl_sub_eq _ _ restOf_nodup]
  cases d with
  | explicit =>
    simp only [if_true]
    rw [triOf_diag_explicit]
    generalize (∑ j ∈ (restOf t n i).toFinset, a i j * v j) = S
    constructor
    · intro e
      rw [e, ((hdiv rfl i hi) _).1]; abel
    · intro e
      rw [← e, add_sub_cancel_right, ((hdiv rfl i hi) _).2]
  | implicitUnit =>
    simp only [reduceCtorEq, if_false]
    rw [triOf_diag_unit, one_mul]
    exact eq_sub_iff_add_eq

end StdBLAS

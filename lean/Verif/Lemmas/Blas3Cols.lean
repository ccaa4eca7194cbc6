import Verif.Lemmas.Blas3
import Verif.Lemmas.Trsv

/-! # Matrix algorithms that work column by column or row by row -/

namespace StdBLAS
open Finset
variable {α : Type} {h h0 : Heap α}

/-- Column `j` as a vector. -/
def Mat.col (C : Mat) (j : Nat) : Vec := ⟨C.rows, fun i => C.addr i j⟩
/-- Column `j` as a vector. -/
def MatV.col (B : MatV α) (j : Nat) : VecV α := { B.toMat.col j with acc := B.acc }
/-- The transposed view. -/
def Mat.tr (C : Mat) : Mat := ⟨C.cols, C.rows, fun i j => C.addr j i⟩
/-- The transposed view. -/
def MatV.tr (B : MatV α) : MatV α := { B.toMat.tr with acc := B.acc }

theorem Mat.get_col {C : Mat} {i j : Nat} (hj : j < C.cols) :
    (C.get i j : Prog α α) = (C.col j).get i := by
  unfold Mat.get Vec.get Mat.col
  simp [hj]

theorem Mat.set_col {C : Mat} {i j : Nat} {v : α} (hj : j < C.cols) :
    C.set i j v = (C.col j).set i v := by
  unfold Mat.set Vec.set Mat.col
  simp [hj]

theorem MatV.get_col {B : MatV α} {i j : Nat} (hj : j < B.cols) : B.get i j = (B.col j).get i := by
  unfold MatV.get VecV.get MatV.col Mat.col
  simp [hj]

theorem Mat.addTo_col [Add α] {C : Mat} {i j : Nat} {v : α} (hj : j < C.cols) :
    C.addTo i j v = (C.col j).addTo i v := by
  unfold Mat.addTo Vec.addTo
  rw [Mat.get_col hj]
  simp only [Mat.set_col hj]

theorem Mat.get_tr {C : Mat} {i j : Nat} : (C.get i j : Prog α α) = C.tr.get j i := by
  unfold Mat.get Mat.tr
  by_cases e : i < C.rows ∧ j < C.cols
  · rw [if_pos e, if_pos e.symm]
  · rw [if_neg e, if_neg fun e' => e ⟨e'.2, e'.1⟩]

theorem Mat.set_tr {C : Mat} {i j : Nat} {v : α} : C.set i j v = C.tr.set j i v := by
  unfold Mat.set Mat.tr
  by_cases e : i < C.rows ∧ j < C.cols
  · rw [if_pos e, if_pos e.symm]
  · rw [if_neg e, if_neg fun e' => e ⟨e'.2, e'.1⟩]

theorem MatV.get_tr {B : MatV α} {i j : Nat} : B.get i j = B.tr.get j i := by
  unfold MatV.get MatV.tr Mat.tr
  by_cases e : i < B.rows ∧ j < B.cols
  · rw [if_pos e, if_pos e.symm]
  · rw [if_neg e, if_neg fun e' => e ⟨e'.2, e'.1⟩]

theorem forEach_congr {ι : Type} {l : List ι} {f g : ι → Prog α Unit} (e : ∀ i ∈ l, f i = g i) :
    forEach l f = forEach l g := by
  induction l with
  | nil => rfl
  | cons i l ih =>
    rw [forEach_cons, forEach_cons, e i (by simp), ih fun k hk => e k (by simp [hk])]

theorem forUp_congr {lo hi : Nat} {f g : Nat → Prog α Unit}
    (e : ∀ k, lo ≤ k → k < hi → f k = g k) : forUp lo hi f = forUp lo hi g :=
  forEach_congr fun k hk => e k (mem_up.1 hk).1 (mem_up.1 hk).2

/-- One vector problem per column. -/
theorem ends_cols {C : Mat} {body : Nat → Prog α Unit} (P : Nat → (Nat → α) → Prop)
    (h0 : Heap α) (hu : C.Unique) (f0 : Nat → Nat → α)
    (hbody : ∀ j, j < C.cols → ∀ h, OnlyChanges C.Cell h0 h →
      (∀ i, i < C.rows → h (C.addr i j) = h0 (C.addr i j)) →
      Ends (body j) h fun _ h' => ∃ v, (C.col j).Becomes h h' v ∧ P j v) :
    Ends (forUp 0 C.cols body) h0 fun _ h' => ∃ f, C.Becomes h0 h' f ∧
      ∀ j, j < C.cols → P j fun i => f i j := by
  refine (ends_forUp_inv (fun m h' => ∃ f : Nat → Nat → α,
    (∀ i j, i < C.rows → j < m → h' (C.addr i j) = some (f i j)) ∧
    (∀ j, j < m → P j fun i => f i j) ∧
    (∀ i j, i < C.rows → m ≤ j → j < C.cols → h' (C.addr i j) = h0 (C.addr i j)) ∧
    OnlyChanges C.Cell h0 h') (Nat.zero_le _) ?_ ?_).mono ?_
  · rintro j _ hj h1 ⟨f, hf, hP, hrest, hc⟩
    refine (hbody j hj h1 hc fun i hi => hrest i j hi le_rfl hj).mono ?_
    rintro _ h' ⟨v, hv, hpv⟩
    have hother : ∀ i k, i < C.rows → k < C.cols → k ≠ j → h' (C.addr i k) = h1 (C.addr i k) := by
      intro i k hi hk hne
      refine hv.2 _ ?_
      rintro ⟨i', hi', e⟩
      exact hne (hu i' j i k hi' hj trivial hi hk trivial e).2.symm
    refine ⟨fun i k => if k = j then v i else f i k, ?_, ?_, ?_, ?_⟩
    · intro i k hi hk
      beta_reduce
      by_cases e : k = j
      · subst e; rw [if_pos rfl]; exact hv.1 i hi
      · rw [if_neg e, hother i k hi (by omega) e]; exact hf i k hi (by omega)
    · intro k hk
      by_cases e : k = j
      · subst e; simpa using hpv
      · simpa only [if_neg e] using hP k (by omega)
    · intro i k hi hk hk'
      rw [hother i k hi hk' (by omega)]; exact hrest i k hi (by omega) hk'
    · intro a ha
      rw [hv.2 a, hc a ha]
      rintro ⟨i, hi, e⟩
      exact ha ⟨i, j, hi, hj, trivial, e⟩
  · exact ⟨f0, by omega, by omega, fun _ _ _ _ _ => rfl, fun _ _ => rfl⟩
  · rintro _ h' ⟨f, hf, hP, _, hc⟩
    exact ⟨f, ⟨fun i j hi hj _ => hf i j hi hj, hc⟩, hP⟩

theorem Mat.Becomes.tr {C : Mat} {h h' : Heap α} {f : Nat → Nat → α}
    (hb : C.tr.Becomes h h' f) : C.Becomes h h' fun i j => f j i := by
  refine ⟨fun i j hi hj _ => hb.1 j i hj hi trivial, fun a ha => hb.2 a ?_⟩
  rintro ⟨j, i, hj, hi, _, e⟩
  exact ha ⟨i, j, hi, hj, trivial, e⟩

theorem Mat.Unique.tr {C : Mat} (hu : C.Unique) : C.tr.Unique :=
  fun i j k l hi hj _ hk hl _ e => (hu j i l k hj hi trivial hl hk trivial e).symm

theorem Mat.tr_cell {C : Mat} {a : Nat} : C.tr.Cell a ↔ C.Cell a := by
  constructor <;> rintro ⟨i, j, hi, hj, _, e⟩ <;> exact ⟨j, i, hj, hi, trivial, e⟩

/-- One vector problem per row. -/
theorem ends_rows {C : Mat} {body : Nat → Prog α Unit} (P : Nat → (Nat → α) → Prop)
    (h0 : Heap α) (hu : C.Unique) (f0 : Nat → Nat → α)
    (hbody : ∀ i, i < C.rows → ∀ h, OnlyChanges C.Cell h0 h →
      (∀ j, j < C.cols → h (C.addr i j) = h0 (C.addr i j)) →
      Ends (body i) h fun _ h' => ∃ v, (C.tr.col i).Becomes h h' v ∧ P i v) :
    Ends (forUp 0 C.rows body) h0 fun _ h' => ∃ f, C.Becomes h0 h' f ∧
      ∀ i, i < C.rows → P i (f i) := by
  refine (ends_cols (C := C.tr) P h0 hu.tr f0 ?_).mono ?_
  · intro i hi h1 hc he
    exact hbody i hi h1 (hc.mono fun a ha => Mat.tr_cell.1 ha) he
  · rintro _ h' ⟨f, hf, hP⟩
    exact ⟨_, hf.tr, hP⟩

theorem Mat.Unique.col {C : Mat} (hu : C.Unique) {j : Nat} (hj : j < C.cols) :
    (C.col j).Unique := fun i k hi hk e => (hu i j k j hi hj trivial hk hj trivial e).1

theorem Mat.col_cell {C : Mat} {j a : Nat} (hj : j < C.cols) (ha : (C.col j).Cell a) : C.Cell a := by
  obtain ⟨i, hi, e⟩ := ha
  exact ⟨i, j, hi, hj, trivial, e⟩

/-! ## In-place triangular product, left side -/

/-- `trmmLeftInPlace` on one column. -/
def trmmColInPlace [Add α] [Mul α] (A : MatV α) (t : Triangle) (d : Diag) (y : Vec) :
    Prog α Unit :=
  match t with
  | .upper =>
    forUp 0 y.ext fun k => do
      forUp 0 k fun i => do
        let a ← A.get i k
        let c ← y.get k
        y.addTo i (a * c)
      if d = .explicit then do
        let a ← A.get k k
        let c ← y.get k
        y.set k (a * c)
      else pure ()
  | .lower =>
    forDown y.ext fun k => do
      forUp (k + 1) y.ext fun i => do
        let a ← A.get i k
        let c ← y.get k
        y.addTo i (a * c)
      if d = .explicit then do
        let a ← A.get k k
        let c ← y.get k
        y.set k (a * c)
      else pure ()

theorem trmmLeftInPlace_cols [Add α] [Mul α] (A : MatV α) (t : Triangle) (d : Diag) (C : Mat) :
    trmmLeftInPlace A t d C = forUp 0 C.cols fun j => trmmColInPlace A t d (C.col j) := by
  unfold trmmLeftInPlace
  cases t with
  | upper =>
    refine forUp_congr fun j _ hj => ?_
    simp only [Mat.get_col hj, Mat.set_col hj, Mat.addTo_col hj]
    rfl
  | lower =>
    refine forUp_congr fun j _ hj => ?_
    simp only [Mat.get_col hj, Mat.set_col hj, Mat.addTo_col hj]
    rfl

theorem trmmColInPlace_ends [NonAssocSemiring α] {A : MatV α} {t : Triangle} {d : Diag} {y : Vec}
    {a : Nat → Nat → α} {f : Nat → α}
    (hA : A.HoldsOn h (triRegion t d) a) (hy : y.Holds h f)
    (hsq : A.rows = A.cols) (hext : A.rows = y.ext) (hu : y.Unique)
    (hAy : Apart (A.toMat.CellOn (triRegion t d)) y.Cell) :
    Ends (trmmColInPlace A t d y) h fun _ h' =>
      y.Becomes h h' fun r => mulVec A.cols (triOf t d a) f r := by
  unfold trmmColInPlace
  cases t with
  | upper =>
    refine (ends_forUp_inv (fun j h' => y.Acc h h'
      (fun r => if r < j then triOf .upper d a r r * f r else f r) A.cols
      (fun r c => a r c * f c) (fun r c => r < c ∧ c < j)) (Nat.zero_le _) ?_ ?_).mono ?_
    · intro j _ hj h1 hh
      rw [ends_bind]
      refine (ends_forUp_inv (fun i h' => y.Acc h h'
        (fun r => if r < j then triOf .upper d a r r * f r else f r) A.cols
        (fun r c => a r c * f c) (fun r c => r < c ∧ (c < j ∨ (c = j ∧ r < i)))) (Nat.zero_le _) ?_
        (hh.conv fun r c _ _ => by omega)).mono ?_
      · intro i _ hi h2 hh2
        have hA2 := hA.of_onlyChanges hAy hh2.onlyChanges
        rw [ends_bind, hA2.get_iff (by omega) (by omega)
          ⟨by simp only [Triangle.region]; omega, by omega⟩, ends_bind,
          hh2.val hj (by omega), if_neg (by omega)]
        exact hh2.add hu (r := i) (c := j) (by omega) (by omega) (by omega) rfl _
          (fun r c _ _ => by omega)
      · intro _ h2 hh2
        have e2 := hh2.conv (P' := fun r c => r < c ∧ c < j + 1) fun r c _ _ => by omega
        have hA2 := hA.of_onlyChanges hAy hh2.onlyChanges
        cases d with
        | explicit =>
          simp only [if_true]
          rw [ends_bind, hA2.get_iff (by omega) (by omega) ⟨le_refl j, by simp⟩, ends_bind,
            e2.val hj (by omega), if_neg (by omega)]
          refine e2.setBase hu hj (by omega) _ _ fun k hk => ?_
          by_cases ek : k = j
          · subst ek; rw [if_pos (by omega), triOf_diag_explicit, Function.update_self]
          · rw [Function.update_of_ne ek]
            by_cases hk' : k < j
            · rw [if_pos hk', if_pos (by omega)]
            · rw [if_neg hk', if_neg (by omega)]
        | implicitUnit =>
          simp only [reduceCtorEq, if_false, ends_pure]
          refine e2.congrBase fun k hk => ?_
          by_cases ek : k = j
          · subst ek; rw [if_neg (by omega), if_pos (by omega), triOf_diag_unit, one_mul]
          · by_cases hk' : k < j
            · rw [if_pos hk', if_pos (by omega)]
            · rw [if_neg hk', if_neg (by omega)]
    · exact Vec.Acc.start ((Vec.Becomes.refl hy).congr fun i _ => by rw [if_neg (by omega)]) _
        (by omega)
    · intro _ h' hh
      refine Vec.Becomes.congr hh fun r hr => ?_
      rw [← tri_row_split (by omega)]
      simp only
      rw [if_pos (by omega)]
      congr 1
      exact psum_congr fun c hc => by simp only [Triangle.region]; omega
  | lower =>
    refine (ends_forDown_inv (fun m h' => y.Acc h h'
      (fun r => if m ≤ r then triOf .lower d a r r * f r else f r) A.cols
      (fun r c => a r c * f c) (fun r c => c < r ∧ m ≤ c)) ?_ ?_).mono ?_
    · intro j hj h1 hh
      rw [ends_bind]
      refine (ends_forUp_inv (fun i h' => y.Acc h h'
        (fun r => if j + 1 ≤ r then triOf .lower d a r r * f r else f r) A.cols
        (fun r c => a r c * f c) (fun r c => c < r ∧ (j + 1 ≤ c ∨ (c = j ∧ r < i))))
        (by omega) ?_ (hh.conv fun r c _ _ => by omega)).mono ?_
      · intro i _ hi h2 hh2
        have hA2 := hA.of_onlyChanges hAy hh2.onlyChanges
        rw [ends_bind, hA2.get_iff (by omega) (by omega)
          ⟨by simp only [Triangle.region]; omega, by omega⟩, ends_bind,
          hh2.val hj (by omega), if_neg (by omega)]
        exact hh2.add hu (r := i) (c := j) (by omega) (by omega) (by omega) rfl _
          (fun r c _ _ => by omega)
      · intro _ h2 hh2
        have e2 := hh2.conv (P' := fun r c => c < r ∧ j ≤ c) fun r c _ _ => by omega
        have hA2 := hA.of_onlyChanges hAy hh2.onlyChanges
        cases d with
        | explicit =>
          simp only [if_true]
          rw [ends_bind, hA2.get_iff (by omega) (by omega) ⟨le_refl j, by simp⟩, ends_bind,
            e2.val hj (by omega), if_neg (by omega)]
          refine e2.setBase hu hj (by omega) _ _ fun k hk => ?_
          by_cases ek : k = j
          · subst ek; rw [if_pos (by omega), triOf_diag_explicit, Function.update_self]
          · rw [Function.update_of_ne ek]
            by_cases hk' : j + 1 ≤ k
            · rw [if_pos hk', if_pos (by omega)]
            · rw [if_neg hk', if_neg (by omega)]
        | implicitUnit =>
          simp only [reduceCtorEq, if_false, ends_pure]
          refine e2.congrBase fun k hk => ?_
          by_cases ek : k = j
          · subst ek; rw [if_neg (by omega), if_pos (by omega), triOf_diag_unit, one_mul]
          · by_cases hk' : j + 1 ≤ k
            · rw [if_pos hk', if_pos (by omega)]
            · rw [if_neg hk', if_neg (by omega)]
    · exact Vec.Acc.start ((Vec.Becomes.refl hy).congr fun i hi => by rw [if_neg (by omega)]) _
        (by omega)
    · intro _ h' hh
      refine Vec.Becomes.congr hh fun r hr => ?_
      rw [← tri_row_split (by omega)]
      simp only
      rw [if_pos (by omega)]
      congr 1
      exact psum_congr fun c hc => by simp only [Triangle.region]; omega

theorem trmmLeftInPlace_ends [NonAssocSemiring α] {A : MatV α} {t : Triangle} {d : Diag} {C : Mat}
    {a c : Nat → Nat → α}
    (hA : A.HoldsOn h (triRegion t d) a) (hC : C.Holds h c)
    (hsq : A.rows = A.cols) (hr : C.rows = A.rows) (hu : C.Unique)
    (hAC : Apart (A.toMat.CellOn (triRegion t d)) C.Cell) :
    Ends (trmmLeftInPlace A t d C) h fun _ h' =>
      C.Becomes h h' (mulMat A.cols (triOf t d a) c) := by
  rw [trmmLeftInPlace_cols]
  refine (ends_cols (fun j v => ∀ i, i < C.rows → v i = mulVec A.cols (triOf t d a) (fun k => c k j) i)
    h hu c ?_).mono ?_
  · intro j hj h1 hc he
    refine (trmmColInPlace_ends (hA.of_onlyChanges hAC hc) (y := C.col j) (f := fun i => c i j)
      (fun i hi => (he i hi).trans (hC i j hi hj trivial)) hsq hr.symm (hu.col hj)
      (fun b hb hb' => hAC b hb (Mat.col_cell hj hb'))).mono ?_
    intro _ h' hb
    exact ⟨_, hb, fun _ _ => rfl⟩
  · rintro _ h' ⟨f, hf, hP⟩
    exact Mat.BecomesOn.congr hf fun i j hi hj _ => hP j hj i hi

/-! ## In-place triangular product, right side -/

/-- A loop over the rows that updates column `j`. -/
theorem Mat.BecomesOn.colLoop {C : Mat} {u : Nat → Nat → α} {h1 : Heap α} {j : Nat}
    {body : Nat → Prog α Unit} (hb : C.Becomes h0 h1 u) (hu : C.Unique) (hj : j < C.cols)
    (g : Nat → α)
    (hbody : ∀ i, i < C.rows → ∀ h2 w, C.Becomes h0 h2 w →
      (∀ r c, (c ≠ j ∨ i ≤ r) → w r c = u r c) →
      ∃ v, v = g i ∧ ∀ Q : Unit → Heap α → Prop, Ends (C.set i j v) h2 Q → Ends (body i) h2 Q) :
    Ends (forUp 0 C.rows body) h1 fun _ h' =>
      C.Becomes h0 h' fun r c => if c = j then g r else u r c := by
  refine (ends_forUp_inv (fun m h' => C.Becomes h0 h' fun r c =>
    if c = j ∧ r < m then g r else u r c) (Nat.zero_le _) ?_ ?_).mono ?_
  · intro i _ hi h2 hb2
    obtain ⟨v, rfl, hq⟩ := hbody i hi h2 _ hb2 (fun r c hrc => by rw [if_neg (by omega)])
    refine hq _ ((Mat.BecomesOn.set hb2 hu hi hj trivial _).mono fun _ h3 hb3 => ?_)
    refine hb3.congr fun r c hr hc _ => ?_
    unfold updateAt
    by_cases e : r = i ∧ c = j
    · rw [if_pos e, if_pos (by omega), e.1]
    · rw [if_neg e]
      beta_reduce
      by_cases e' : c = j ∧ r < i
      · rw [if_pos e', if_pos (by omega)]
      · rw [if_neg e', if_neg (by omega)]
  · exact Mat.BecomesOn.congr hb fun r c _ _ _ => by rw [if_neg (by omega)]
  · intro _ h' hb'
    refine Mat.BecomesOn.congr hb' fun r c hr _ _ => ?_
    by_cases e : c = j
    · rw [if_pos ⟨e, hr⟩, if_pos e]
    · rw [if_neg fun h => e h.1, if_neg e]

/-- The columns that the in-place right product adds to column `j`. -/
def rightRest (t : Triangle) (n j : Nat) : List Nat := restOf t.flip n j

/-- One column of `trmmRightInPlace`. -/
def trmmRightCol [Add α] [Mul α] (A : MatV α) (t : Triangle) (d : Diag) (C : Mat) (j : Nat) :
    Prog α Unit := do
  (if d = .explicit then
    forUp 0 C.rows fun i => do
      let c ← C.get i j
      let a ← A.get j j
      C.set i j (c * a)
  else pure ())
  forEach (rightRest t C.cols j) fun k => forUp 0 C.rows fun i => do
    let c ← C.get i k
    let a ← A.get k j
    C.addTo i j (c * a)

/-- One element of the in-place right product as the code computes it. -/
def rightElem [Add α] [Mul α] (t : Triangle) (d : Diag) (n : Nat) (a c : Nat → Nat → α)
    (i j : Nat) : α :=
  (rightRest t n j).foldl (fun s k => s + c i k * a k j)
    (if d = .explicit then c i j * a j j else c i j)

theorem trmmRightCol_ends [Add α] [Mul α] {A : MatV α} {t : Triangle} {d : Diag} {C : Mat}
    {a c u : Nat → Nat → α} {h1 : Heap α} {j : Nat}
    (hA : A.HoldsOn h (triRegion t d) a)
    (hsq : A.rows = A.cols) (hr : C.cols = A.cols) (hu : C.Unique)
    (hAC : Apart (A.toMat.CellOn (triRegion t d)) C.Cell) (hj : j < C.cols)
    (hb : C.Becomes h h1 u)
    (hold : ∀ i k, (k = j ∨ k ∈ rightRest t C.cols j) → u i k = c i k) :
    Ends (trmmRightCol A t d C j) h1 fun _ h' => C.Becomes h h' fun r k =>
      if k = j then rightElem t d C.cols a c r j else u r k := by
  unfold trmmRightCol
  rw [ends_bind]
  refine Ends.mono (Q := fun _ h' => C.Becomes h h' fun r k => if k = j then
    (if d = .explicit then c r j * a j j else c r j) else u r k) ?_ fun _ h2 hb2 => ?_
  · cases d with
    | explicit =>
      simp only [if_true]
      refine Mat.BecomesOn.colLoop hb hu hj (fun r => c r j * a j j) ?_
      intro i hi h2 w hw hwu
      refine ⟨w i j * a j j, by rw [hwu i j (Or.inr le_rfl), hold i j (Or.inl rfl)], fun Q q => ?_⟩
      rw [ends_bind, hw.1.get_iff hi hj trivial, ends_bind,
        (hA.of_onlyChanges hAC hw.2).get_iff (by omega) (by omega)
          ⟨by cases t <;> exact le_refl j, by simp⟩]
      exact q
    | implicitUnit =>
      simp only [reduceCtorEq, if_false, ends_pure]
      refine Mat.BecomesOn.congr hb fun r k _ _ _ => ?_
      by_cases e : k = j
      · rw [if_pos e, e, hold r j (Or.inl rfl)]
      · rw [if_neg e]
  · have hmem : ∀ k ∈ rightRest t C.cols j, k < C.cols ∧ k ≠ j ∧ triRegion t d k j := by
      intro k hk
      obtain ⟨x1, x2, x3⟩ := (mem_restOf hj).1 hk
      exact ⟨x1, x2, by cases t <;> exact x3, fun _ => x2⟩
    unfold rightElem
    refine Ends.mono (ends_forEach_fold (R := fun (s : Nat → α) h' => C.Becomes h h' fun r k =>
      if k = j then s r else u r k) (fun s k r => s r + c r k * a k j) ?_ hb2) ?_
    · intro k hk s h3 hb3
      obtain ⟨hk1, hk2, hk3⟩ := hmem k hk
      refine (Mat.BecomesOn.colLoop hb3 hu hj (fun r => s r + c r k * a k j) ?_).mono ?_
      · intro i hi h4 w hw hwu
        refine ⟨w i j + w i k * a k j, ?_, fun Q q => ?_⟩
        · rw [hwu i j (Or.inr le_rfl), hwu i k (Or.inl hk2), if_pos rfl, if_neg hk2,
            hold i k (Or.inr hk)]
        · rw [ends_bind, hw.1.get_iff hi hk1 trivial, ends_bind,
            (hA.of_onlyChanges hAC hw.2).get_iff (by omega) (by omega) hk3]
          unfold Mat.addTo
          rw [ends_bind, hw.1.get_iff hi hj trivial]
          exact q
      · intro _ h4 hb4
        refine Mat.BecomesOn.congr hb4 fun r k' _ _ _ => ?_
        by_cases e : k' = j
        · rw [if_pos e, if_pos e]
        · rw [if_neg e, if_neg e, if_neg e]
    · intro _ h3 hb3
      refine Mat.BecomesOn.congr hb3 fun r k _ _ _ => ?_
      by_cases e : k = j
      · rw [if_pos e, if_pos e]
        generalize rightRest t C.cols j = l
        generalize hs : (fun r => if d = .explicit then c r j * a j j else c r j) = s
        have : (if d = .explicit then c r j * a j j else c r j) = s r := by rw [← hs]
        rw [this]
        clear this hs
        induction l generalizing s with
        | nil => rfl
        | cons k l ih => rw [List.foldl_cons, List.foldl_cons]; exact ih _
      · rw [if_neg e, if_neg e]

/-- `triangular_matrix_right_product` as folds; no algebraic law is used. -/
theorem trmmRightInPlace_fold [Add α] [Mul α] {A : MatV α} {t : Triangle} {d : Diag} {C : Mat}
    {a c : Nat → Nat → α}
    (hA : A.HoldsOn h (triRegion t d) a) (hC : C.Holds h c)
    (hsq : A.rows = A.cols) (hr : C.cols = A.cols) (hu : C.Unique)
    (hAC : Apart (A.toMat.CellOn (triRegion t d)) C.Cell) :
    Ends (trmmRightInPlace A t d C) h fun _ h' =>
      C.Becomes h h' fun i j => rightElem t d C.cols a c i j := by
  unfold trmmRightInPlace
  cases t with
  | upper =>
    have key := ends_forDown_inv (n := C.cols) (h := h) (body := trmmRightCol A .upper d C)
      (fun m h' => C.Becomes h h' fun i j =>
        if m ≤ j then rightElem .upper d C.cols a c i j else c i j) ?_ ?_
    · refine Ends.mono key fun _ h' hb => Mat.BecomesOn.congr hb fun i j _ _ _ => ?_
      rw [if_pos (by omega)]
    · intro j hj h1 hb
      refine (trmmRightCol_ends (c := c) hA hsq hr hu hAC hj hb ?_).mono fun _ h' hb' =>
        Mat.BecomesOn.congr hb' fun i k _ _ _ => ?_
      · intro i k hk
        rw [if_neg]
        rcases hk with rfl | hk
        · omega
        · have := ((mem_restOf hj).1 hk).2
          simp only [Triangle.flip, Triangle.region] at this
          omega
      · by_cases e : k = j
        · subst e; rw [if_pos rfl, if_pos le_rfl]
        · rw [if_neg e]
          by_cases e' : j + 1 ≤ k
          · rw [if_pos e', if_pos (by omega)]
          · rw [if_neg e', if_neg (by omega)]
    · exact Mat.BecomesOn.congr (Mat.BecomesOn.refl hC) fun i j _ hj _ => by
        rw [if_neg (by omega)]
  | lower =>
    have key := ends_forUp_inv (lo := 0) (hi := C.cols) (h := h)
      (body := trmmRightCol A .lower d C)
      (fun m h' => C.Becomes h h' fun i j =>
        if j < m then rightElem .lower d C.cols a c i j else c i j) (Nat.zero_le _) ?_ ?_
    · refine Ends.mono key fun _ h' hb => Mat.BecomesOn.congr hb fun i j _ hj _ => ?_
      rw [if_pos hj]
    · intro j _ hj h1 hb
      refine (trmmRightCol_ends (c := c) hA hsq hr hu hAC hj hb ?_).mono fun _ h' hb' =>
        Mat.BecomesOn.congr hb' fun i k _ _ _ => ?_
      · intro i k hk
        rw [if_neg]
        rcases hk with rfl | hk
        · omega
        · have := ((mem_restOf hj).1 hk).2
          simp only [Triangle.flip, Triangle.region] at this
          omega
      · by_cases e : k = j
        · subst e; rw [if_pos rfl, if_pos (by omega)]
        · rw [if_neg e]
          by_cases e' : k < j
          · rw [if_pos e', if_pos (by omega)]
          · rw [if_neg e', if_neg (by omega)]
    · exact Mat.BecomesOn.congr (Mat.BecomesOn.refl hC) fun i j _ hj _ => by
        rw [if_neg (by omega)]

theorem rightElem_sum [NonAssocSemiring α] {t : Triangle} {d : Diag} {n : Nat}
    {a c : Nat → Nat → α} {i j : Nat} (hj : j < n) :
    rightElem t d n a c i j = mulMat n c (triOf t d a) i j := by
  classical
  unfold rightElem mulMat
  rw [foldl_add_finset _ (rightRest t n j) restOf_nodup]
  have e0 : (if d = .explicit then c i j * a j j else c i j) = c i j * triOf t d a j j := by
    cases d with
    | explicit => rw [if_pos rfl, triOf_diag_explicit]
    | implicitUnit => rw [if_neg (by decide), triOf_diag_unit, mul_one]
  have e1 : ∑ k ∈ (rightRest t n j).toFinset, c i k * a k j =
      ∑ k ∈ (rightRest t n j).toFinset, c i k * triOf t d a k j := by
    refine sum_congr rfl fun k hk => ?_
    obtain ⟨x1, x2, x3⟩ := (mem_restOf hj).1 (List.mem_toFinset.1 hk)
    rw [triOf_off x2 (by cases t <;> exact x3)]
  rw [e0, e1, ← sum_insert (f := fun k => c i k * triOf t d a k j)]
  · refine sum_subset ?_ ?_
    · intro k hk
      rcases mem_insert.1 hk with rfl | hk
      · exact mem_range.2 hj
      · exact mem_range.2 ((mem_restOf hj).1 (List.mem_toFinset.1 hk)).1
    · intro k hk hn
      have hk' := mem_range.1 hk
      rw [mem_insert, not_or] at hn
      rw [triOf_out, mul_zero]
      intro hreg
      exact hn.2 (List.mem_toFinset.2 ((mem_restOf hj).2 ⟨hk', hn.1, by cases t <;> exact hreg⟩))
  · intro hm
    exact ((mem_restOf hj).1 (List.mem_toFinset.1 hm)).2.1 rfl

/-! ## Triangular solves with many right-hand sides -/

/-- Left solve: one vector solve per column. -/
theorem trsmLeft_cols [Sub α] [Mul α] [Div α] (A : MatV α) (t : Triangle) (d : Diag) (B : MatV α)
    (X : Mat) (hsq : A.rows = A.cols) (hc : X.cols = B.cols) :
    trsmLeft A t d B X =
      forUp 0 X.cols fun k => trsv (· / ·) A t d (B.col k) (X.col k) := by
  unfold trsmLeft trsv
  rw [hc]
  cases t with
  | lower =>
    unfold trsmLowerLeft trsvLower
    refine forUp_congr fun k _ hk => ?_
    simp only [MatV.get_col hk, Mat.get_col (hc ▸ hk), Mat.set_col (hc ▸ hk)]
  | upper =>
    unfold trsmUpperLeft trsvUpper
    refine forUp_congr fun k _ hk => ?_
    simp only [MatV.get_col hk, Mat.get_col (hc ▸ hk), Mat.set_col (hc ▸ hk), hsq]

/-- Multiplication with swapped operands. -/
@[reducible] def mulFlip [Mul α] : Mul α := ⟨fun x y => y * x⟩

/-- Right solve: one vector solve with the transposed matrix and swapped multiplication per
row. -/
theorem trsmRight_rows [Sub α] [Mul α] [Div α] (A : MatV α) (t : Triangle) (d : Diag) (B : MatV α)
    (X : Mat) (hc : X.rows = B.rows) :
    trsmRight A t d B X = forUp 0 X.rows fun i =>
      @trsv α _ mulFlip (· / ·) A.tr t.flip d (B.tr.col i) (X.tr.col i) := by
  unfold trsmRight trsv Triangle.flip
  rw [hc]
  cases t with
  | lower =>
    unfold trsmLowerRight trsvUpper
    refine forUp_congr fun i _ hi => ?_
    have h1 : i < B.tr.cols := hi
    have h2 : i < X.tr.cols := by rw [← hc] at hi; exact hi
    simp only [MatV.get_tr (B := B), MatV.get_tr (B := A), Mat.get_tr (C := X), Mat.set_tr (C := X),
      MatV.get_col h1, Mat.get_col h2, Mat.set_col h2]
    rfl
  | upper =>
    unfold trsmUpperRight trsvLower
    refine forUp_congr fun i _ hi => ?_
    have h1 : i < B.tr.cols := hi
    have h2 : i < X.tr.cols := by rw [← hc] at hi; exact hi
    simp only [MatV.get_tr (B := B), MatV.get_tr (B := A), Mat.get_tr (C := X), Mat.set_tr (C := X),
      MatV.get_col h1, Mat.get_col h2, Mat.set_col h2]
    rfl

theorem MatV.HoldsOn.tr {A : MatV α} {t : Triangle} {d : Diag} {a : Nat → Nat → α}
    (hA : A.HoldsOn h (triRegion t d) a) :
    A.tr.HoldsOn h (triRegion t.flip d) fun i j => a j i :=
  fun i j hi hj hr => hA j i hj hi (triRegion_flip.1 hr)

theorem MatV.tr_cellOn {A : MatV α} {t : Triangle} {d : Diag} {b : Nat}
    (hb : A.tr.toMat.CellOn (triRegion t.flip d) b) : A.toMat.CellOn (triRegion t d) b := by
  obtain ⟨i, j, hi, hj, hr, e⟩ := hb
  exact ⟨j, i, hj, hi, triRegion_flip.1 hr, e⟩

/-- Left solve: every column is a substitution; no algebraic law is used. -/
theorem trsmLeft_fold [Sub α] [Mul α] [Div α] {A : MatV α} {t : Triangle} {d : Diag} {B : MatV α}
    {X : Mat} {a b : Nat → Nat → α}
    (hA : A.HoldsOn h (triRegion t d) a) (hB : B.Holds h b) (hX : X.Alloc h)
    (hsq : A.rows = A.cols) (hr : A.rows = X.rows) (hBr : A.rows ≤ B.rows) (hc : X.cols = B.cols)
    (hu : X.Unique) (hAX : Apart (A.toMat.CellOn (triRegion t d)) X.Cell)
    (hBX : B.toMat.Aligned X) :
    Ends (trsmLeft A t d B X) h fun _ h' => ∃ f, X.Becomes h h' f ∧ ∀ j, j < X.cols →
      ∀ i, i < A.rows → f i j =
        subRow (· / ·) t d A.cols a (fun i => b i j) (fun i => f i j) i := by
  rw [trsmLeft_cols A t d B X hsq hc]
  refine ends_cols (fun j v => ∀ i, i < A.rows → v i =
    subRow (· / ·) t d A.cols a (fun i => b i j) v i) h hu b ?_
  intro j hj h1 hch he
  refine trsv_fold _ (hA.of_onlyChanges hAX hch) (B := B.col j) (X := X.col j)
    (g := fun i => b i j) ?_ ?_ hsq hr hBr (hu.col hj)
    (fun p hp hp' => hAX p hp (Mat.col_cell hj hp')) ?_
  · intro i hi
    obtain ⟨v, hv, ev⟩ := hB i j hi (by omega) trivial
    exact ⟨v, (hBX.read hch (i := i) (j := j) hi (by omega) fun hi' _ => he i hi').trans hv, ev⟩
  · intro i hi
    obtain ⟨w, hw⟩ := hX i j hi hj trivial
    exact ⟨w, (he i hi).trans hw⟩
  · intro i k hi hk e
    exact (hBX i j k j hi (by rw [← hc]; exact hj) hk hj e).1

/-- Right solve: every row is a substitution; no algebraic law is used. -/
theorem trsmRight_fold [Sub α] [Mul α] [Div α] {A : MatV α} {t : Triangle} {d : Diag} {B : MatV α}
    {X : Mat} {a b : Nat → Nat → α}
    (hA : A.HoldsOn h (triRegion t d) a) (hB : B.Holds h b) (hX : X.Alloc h)
    (hsq : A.rows = A.cols) (hr : A.cols = X.cols) (hBr : A.cols ≤ B.cols) (hc : X.rows = B.rows)
    (hu : X.Unique) (hAX : Apart (A.toMat.CellOn (triRegion t d)) X.Cell)
    (hBX : B.toMat.Aligned X) :
    Ends (trsmRight A t d B X) h fun _ h' => ∃ f, X.Becomes h h' f ∧ ∀ i, i < X.rows →
      ∀ j, j < A.cols → f i j =
        @subRow α _ mulFlip (· / ·) t.flip d A.rows (fun i j => a j i) (b i) (f i) j := by
  rw [trsmRight_rows A t d B X hc]
  refine ends_rows (fun i v => ∀ j, j < A.cols → v j =
    @subRow α _ mulFlip (· / ·) t.flip d A.rows (fun i j => a j i) (b i) v j) h hu b ?_
  intro i hi h1 hch he
  refine @trsv_fold α h1 _ mulFlip _ A.tr t.flip d (B.tr.col i) (X.tr.col i) _ (b i)
    (hA.of_onlyChanges hAX hch).tr ?_ ?_ hsq.symm hr hBr (hu.tr.col (j := i) hi)
    (fun p hp hp' => hAX p (MatV.tr_cellOn hp) (Mat.tr_cell.1 (Mat.col_cell (C := X.tr) hi hp'))) ?_
  · intro j hj
    obtain ⟨v, hv, ev⟩ := hB i j (by omega) hj trivial
    exact ⟨v, (hBX.read hch (i := i) (j := j) (by omega) hj fun _ hj' => he j hj').trans hv, ev⟩
  · intro j hj
    obtain ⟨w, hw⟩ := hX i j hi hj trivial
    exact ⟨w, (he j hj).trans hw⟩
  · intro j k hj hk e
    exact (hBX i j i k (by rw [← hc]; exact hi) hj hi hk e).2

/-- A ring with swapped multiplication. -/
@[reducible] def ringFlip [NonAssocRing α] : NonAssocRing α :=
  { (inferInstance : NonAssocRing α) with
    mul := fun x y => y * x
    left_distrib := fun a b c => add_mul b c a
    right_distrib := fun a b c => mul_add c a b
    zero_mul := fun a => mul_zero a
    mul_zero := fun a => zero_mul a
    one_mul := fun a => mul_one a
    mul_one := fun a => one_mul a }

theorem triOf_flip [Zero α] [One α] {t : Triangle} {d : Diag} {a : Nat → Nat → α} {i j : Nat} :
    triOf t.flip d (fun i j => a j i) i j = triOf t d a j i := by
  classical
  unfold triOf
  by_cases e : i = j
  · subst e; rw [if_pos rfl, if_pos rfl]
  · rw [if_neg e, if_neg (Ne.symm e)]
    cases t <;> rfl

/-- A substitution with swapped multiplication solves `v T = g`. -/
theorem subRow_flip_iff [NonAssocRing α] {divide : α → α → α} {t : Triangle} {d : Diag} {n : Nat}
    {a : Nat → Nat → α} {g v : Nat → α}
    (hdiv : d = .explicit → ∀ i, i < n → ∀ s,
      divide s (a i i) * a i i = s ∧ divide (s * a i i) (a i i) = s) {i : Nat} (hi : i < n) :
    v i = @subRow α _ mulFlip divide t.flip d n (fun i j => a j i) g v i ↔
      ∑ k ∈ range n, v k * triOf t d a k i = g i := by
  have := @subRow_iff α ringFlip divide t.flip d n (fun i j => a j i) g v hdiv i hi
  refine Iff.trans ?_ (this.trans ?_)
  · exact Iff.rfl
  · unfold mulVec
    have e : ∀ k ∈ range n, @HMul.hMul α α α (@instHMul α ringFlip.toMul)
        (triOf t.flip d (fun i j => a j i) i k) (v k) = v k * triOf t d a k i := by
      intro k _
      rw [triOf_flip]
      rfl
    exact Iff.of_eq (congrArg (· = g i) (sum_congr rfl e))

end StdBLAS

import Verif.Lemmas.Loops
import Verif.Lemmas.Blas1
import Verif.Model.Blas2

/-!
# Output views as an abstract state

`y.Becomes h0 h u` ("y holds u, and only y differs from h0") is used as a loop invariant;
here is how single statements act on it.
-/

namespace StdBLAS
open Finset
variable {α : Type} {h h0 : Heap α}

/-! ## Reading inputs -/

theorem VecV.Holds.get_iff {x : VecV α} {f : Nat → α} (hx : x.Holds h f) {i : Nat} (hi : i < x.ext)
    {Q : α → Heap α → Prop} : Ends (x.get i) h Q ↔ Q (f i) h := by
  obtain ⟨v, hv, e⟩ := hx i hi
  rw [ends_vecV_get]
  constructor
  · rintro ⟨_, w, hw, q⟩
    rw [hv] at hw; cases hw; rwa [← e]
  · intro q; exact ⟨hi, v, hv, by rwa [e]⟩

theorem MatV.HoldsOn.get_iff {A : MatV α} {R : Region} {f : Nat → Nat → α} (hA : A.HoldsOn h R f)
    {i j : Nat} (hi : i < A.rows) (hj : j < A.cols) (hr : R i j) {Q : α → Heap α → Prop} :
    Ends (A.get i j) h Q ↔ Q (f i j) h := by
  obtain ⟨v, hv, e⟩ := hA i j hi hj hr
  rw [ends_matV_get]
  constructor
  · rintro ⟨_, w, hw, q⟩
    rw [hv] at hw; cases hw; rwa [← e]
  · intro q; exact ⟨⟨hi, hj⟩, v, hv, by rwa [e]⟩

theorem Vec.Holds.get_iff {x : Vec} {f : Nat → α} (hx : x.Holds h f) {i : Nat} (hi : i < x.ext)
    {Q : α → Heap α → Prop} : Ends (x.get i) h Q ↔ Q (f i) h := by
  rw [ends_vec_get, hx i hi]
  constructor
  · rintro ⟨_, w, hw, q⟩; cases hw; exact q
  · intro q; exact ⟨hi, _, rfl, q⟩

theorem Mat.HoldsOn.get_iff {A : Mat} {R : Region} {f : Nat → Nat → α} (hA : A.HoldsOn h R f)
    {i j : Nat} (hi : i < A.rows) (hj : j < A.cols) (hr : R i j) {Q : α → Heap α → Prop} :
    Ends (A.get i j) h Q ↔ Q (f i j) h := by
  rw [ends_mat_get, hA i j hi hj hr]
  constructor
  · rintro ⟨_, w, hw, q⟩; cases hw; exact q
  · intro q; exact ⟨⟨hi, hj⟩, _, rfl, q⟩

/-! ## Vectors -/

theorem Vec.Alloc.exists_holds {y : Vec} (hy : y.Alloc h) (d : Nat → α) :
    ∃ f, y.Holds h f := by
  classical
  refine ⟨fun i => if hi : i < y.ext then (hy i hi).choose else d i, fun i hi => ?_⟩
  simp only [dif_pos hi]
  exact (hy i hi).choose_spec

theorem Vec.Holds.alloc {y : Vec} {f : Nat → α} (hy : y.Holds h f) : y.Alloc h :=
  fun i hi => ⟨_, hy i hi⟩

theorem Vec.Becomes.refl {y : Vec} {f : Nat → α} (hy : y.Holds h f) : y.Becomes h h f :=
  ⟨hy, fun _ _ => rfl⟩

theorem Vec.Becomes.congr {y : Vec} {u v : Nat → α} (hb : y.Becomes h0 h u)
    (e : ∀ i, i < y.ext → u i = v i) : y.Becomes h0 h v :=
  ⟨fun i hi => by rw [← e i hi]; exact hb.1 i hi, hb.2⟩

theorem Vec.Becomes.trans {y : Vec} {h1 h2 : Heap α} {u v : Nat → α} (hb : y.Becomes h0 h1 u)
    (hb' : y.Becomes h1 h2 v) : y.Becomes h0 h2 v :=
  ⟨hb'.1, fun a ha => (hb'.2 a ha).trans (hb.2 a ha)⟩

theorem Vec.Becomes.set {y : Vec} {u : Nat → α} (hb : y.Becomes h0 h u) (hu : y.Unique) {i : Nat}
    (hi : i < y.ext) (v : α) :
    Ends (y.set i v) h (fun _ h' => y.Becomes h0 h' (Function.update u i v)) := by
  rw [ends_vec_set]
  refine ⟨hi, ⟨_, hb.1 i hi⟩, ?_, ?_⟩
  · intro k hk
    by_cases e : k = i
    · subst e; simp
    · rw [Function.update_of_ne, Function.update_of_ne e]
      · exact hb.1 k hk
      · exact fun e' => e (hu k i hk hi e')
  · intro a ha
    rw [Function.update_of_ne]
    · exact hb.2 a ha
    · rintro rfl; exact ha ⟨i, hi, rfl⟩

theorem Vec.Becomes.addTo [Add α] {y : Vec} {u : Nat → α} (hb : y.Becomes h0 h u) (hu : y.Unique)
    {i : Nat} (hi : i < y.ext) (v : α) :
    Ends (y.addTo i v) h (fun _ h' => y.Becomes h0 h' (Function.update u i (u i + v))) := by
  unfold Vec.addTo
  rw [ends_bind, hb.1.get_iff hi]
  exact hb.set hu hi _

/-! ## Matrices -/

theorem Mat.AllocOn.exists_holds {C : Mat} {R : Region} (hC : C.AllocOn h R) (d : Nat → Nat → α) :
    ∃ f, C.HoldsOn h R f := by
  classical
  refine ⟨fun i j => if hi : i < C.rows ∧ j < C.cols ∧ R i j then
    (hC i j hi.1 hi.2.1 hi.2.2).choose else d i j, fun i j hi hj hr => ?_⟩
  simp only [dif_pos (And.intro hi (And.intro hj hr))]
  exact (hC i j hi hj hr).choose_spec

theorem Mat.BecomesOn.refl {C : Mat} {R : Region} {f : Nat → Nat → α} (hC : C.HoldsOn h R f) :
    C.BecomesOn h h R f := ⟨hC, fun _ _ => rfl⟩

theorem Mat.BecomesOn.congr {C : Mat} {R : Region} {u v : Nat → Nat → α}
    (hb : C.BecomesOn h0 h R u)
    (e : ∀ i j, i < C.rows → j < C.cols → R i j → u i j = v i j) : C.BecomesOn h0 h R v :=
  ⟨fun i j hi hj hr => by rw [← e i j hi hj hr]; exact hb.1 i j hi hj hr, hb.2⟩

/-- Write one element of a matrix of values. -/
def updateAt (u : Nat → Nat → α) (i j : Nat) (v : α) : Nat → Nat → α :=
  fun k l => if k = i ∧ l = j then v else u k l

@[simp] theorem updateAt_same (u : Nat → Nat → α) (i j : Nat) (v : α) : updateAt u i j v i j = v := by
  simp [updateAt]

theorem Mat.BecomesOn.set {C : Mat} {R : Region} {u : Nat → Nat → α} (hb : C.BecomesOn h0 h R u)
    (hu : C.UniqueOn R) {i j : Nat} (hi : i < C.rows) (hj : j < C.cols) (hr : R i j) (v : α) :
    Ends (C.set i j v) h (fun _ h' => C.BecomesOn h0 h' R (updateAt u i j v)) := by
  rw [ends_mat_set]
  refine ⟨⟨hi, hj⟩, ⟨_, hb.1 i j hi hj hr⟩, ?_, ?_⟩
  · intro k l hk hl hr'
    unfold updateAt
    by_cases e : k = i ∧ l = j
    · obtain ⟨rfl, rfl⟩ := e; simp
    · rw [Function.update_of_ne, if_neg e]
      · exact hb.1 k l hk hl hr'
      · exact fun e' => e (hu k l i j hk hl hr' hi hj hr e')
  · intro a ha
    rw [Function.update_of_ne]
    · exact hb.2 a ha
    · rintro rfl; exact ha ⟨i, j, hi, hj, hr, rfl⟩

theorem Mat.BecomesOn.addTo [Add α] {C : Mat} {R : Region} {u : Nat → Nat → α}
    (hb : C.BecomesOn h0 h R u) (hu : C.UniqueOn R) {i j : Nat} (hi : i < C.rows)
    (hj : j < C.cols) (hr : R i j) (v : α) :
    Ends (C.addTo i j v) h
      (fun _ h' => C.BecomesOn h0 h' R (updateAt u i j (u i j + v))) := by
  unfold Mat.addTo
  rw [ends_bind, hb.1.get_iff hi hj hr]
  exact hb.set hu hi hj hr _

/-! ## Partial sums: which terms have been added so far -/

open Classical in
/-- Sum of the terms `t r c`, `c < n`, that satisfy `P`. -/
noncomputable def psum [AddCommMonoid α] (n : Nat) (P : Nat → Nat → Prop) (t : Nat → Nat → α)
    (r : Nat) : α :=
  ∑ c ∈ range n, if P r c then t r c else 0

theorem psum_none [AddCommMonoid α] {n : Nat} {P : Nat → Nat → Prop} {t : Nat → Nat → α} {r : Nat}
    (hP : ∀ c, c < n → ¬ P r c) : psum n P t r = 0 := by
  unfold psum
  refine sum_eq_zero fun c hc => if_neg (hP c (mem_range.1 hc))

theorem psum_eq [AddCommMonoid α] {n : Nat} {P : Nat → Nat → Prop} {t s : Nat → Nat → α} {r : Nat}
    (h1 : ∀ c, c < n → P r c → t r c = s r c) (h2 : ∀ c, c < n → ¬ P r c → s r c = 0) :
    psum n P t r = ∑ c ∈ range n, s r c := by
  unfold psum
  refine sum_congr rfl fun c hc => ?_
  split
  · next h => exact h1 c (mem_range.1 hc) h
  · next h => exact (h2 c (mem_range.1 hc) h).symm

theorem psum_congr [AddCommMonoid α] {n : Nat} {P P' : Nat → Nat → Prop} {t : Nat → Nat → α}
    {r : Nat} (h1 : ∀ c, c < n → (P r c ↔ P' r c)) : psum n P t r = psum n P' t r := by
  unfold psum
  refine sum_congr rfl fun c hc => ?_
  have e := h1 c (mem_range.1 hc)
  by_cases hp : P r c
  · rw [if_pos hp, if_pos (e.1 hp)]
  · rw [if_neg hp, if_neg fun hp' => hp (e.2 hp')]

/-- Adding one new term. -/
theorem psum_step [AddCommMonoid α] {n : Nat} {P P' : Nat → Nat → Prop} {t : Nat → Nat → α}
    {u : Nat → α} {r0 c0 : Nat} (hc : c0 < n) (hn : ¬ P r0 c0) {m : Nat} (hr0 : r0 < m)
    (hP : ∀ r c, r < m → c < n → (P' r c ↔ P r c ∨ (r = r0 ∧ c = c0))) {v : α}
    (hv : v = t r0 c0) :
    ∀ r, r < m → Function.update (fun r => u r + psum n P t r) r0 (u r0 + psum n P t r0 + v) r =
      u r + psum n P' t r := by
  intro r hr
  by_cases e : r = r0
  · subst e
    rw [Function.update_self, add_assoc]
    congr 1
    rw [hv]
    unfold psum
    classical
    have : ∀ c ∈ range n, (if P' r c then t r c else 0) =
        (if P r c then t r c else 0) + (if c = c0 then t r c else 0) := by
      intro c hcn
      have := hP r c hr (mem_range.1 hcn)
      by_cases e : c = c0
      · subst e
        rw [if_pos (this.2 (Or.inr ⟨rfl, rfl⟩)), if_neg hn, if_pos rfl, zero_add]
      · rw [if_neg e, add_zero]
        refine if_congr (this.trans ?_) rfl rfl
        simp [e]
    rw [sum_congr rfl this, sum_add_distrib]
    congr 1
    rw [sum_ite_eq' (range n) c0 (fun c => t r c), if_pos (mem_range.2 hc)]
  · rw [Function.update_of_ne e]
    have : psum n P t r = psum n P' t r := psum_congr fun c hcn => by
      rw [hP r c hr hcn]; simp [e]
    rw [this]

end StdBLAS

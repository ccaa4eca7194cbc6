import Verif.Lemmas.Kokkos
import Verif.Spec.Parallel

/-! # Lemmas for comparing the Kokkos backend with the native implementation -/

namespace StdBLAS
variable {α β : Type} {h : Heap α} {p : Prog α β} {q : Sched α β}

theorem Vec.Holds.toView {x : Vec} {f : Nat → α} (hx : x.Holds h f) :
    (x.view : VecV α).Holds h f := fun i hi => ⟨_, hx i hi, rfl⟩

theorem Mat.HoldsOn.toView {A : Mat} {R : Region} {f : Nat → Nat → α} (hA : A.HoldsOn h R f) :
    (A.view : MatV α).HoldsOn h R f := fun i j hi hj hr => ⟨_, hA i j hi hj hr, rfl⟩

theorem KVec.mdspan_unique {x : KVec} (hx : x.stride = 1) : x.mdspan.Unique := by
  intro i k _ _ e
  simp only [KVec.mdspan, hx] at e
  omega

theorem same_of {P : β → Heap α → Prop}
    (uniq : ∀ b h1 b' h2, P b h1 → P b' h2 → b = b' ∧ h1 = h2)
    (hp : Ends p h P) (hq : Surely q h P) : SameOutcome p q h := by
  obtain ⟨b, h', e, hb⟩ := hp
  obtain ⟨⟨r, hr⟩, H⟩ := hq
  refine ⟨b, h', e, fun r' => ⟨fun hr' => ?_, ?_⟩⟩
  · obtain ⟨b1, h1, e1, hb1⟩ := H r' hr'
    obtain ⟨rfl, rfl⟩ := uniq _ _ _ _ hb hb1
    exact e1
  · rintro rfl
    obtain ⟨b1, h1, e1, hb1⟩ := H r hr
    obtain ⟨rfl, rfl⟩ := uniq _ _ _ _ hb hb1
    rw [← e1]; exact hr

theorem differ_of {P Q : β → Heap α → Prop}
    (diff : ∀ b h', P b h' → Q b h' → False)
    (hp : Ends p h P) (hq : Surely q h Q) : DifferentOutcome p q h := by
  obtain ⟨b, h', e, hb⟩ := hp
  obtain ⟨⟨r, hr⟩, H⟩ := hq
  refine ⟨b, h', e, ⟨r, hr⟩, fun r' hr' e' => ?_⟩
  obtain ⟨b1, h1, e1, hb1⟩ := H r' hr'
  rw [e'] at e1
  cases e1
  exact diff _ _ hb hb1

theorem differ_of_fails {P : β → Heap α → Prop} {err : Err}
    (hp : Ends p h P) (hq : SurelyFails q h err) : DifferentOutcome p q h := by
  obtain ⟨b, h', e, hb⟩ := hp
  refine ⟨b, h', e, ⟨_, (hq _).2 rfl⟩, fun r' hr' e' => ?_⟩
  rw [(hq r').1 hr'] at e'
  cases e'

theorem same_value {v w : β} (hp : Ends p h fun r h' => r = v ∧ h' = h)
    (hq : Surely q h fun r h' => r = w ∧ h' = h) (e : w = v) : SameOutcome p q h := by
  subst e
  refine same_of ?_ hp hq
  rintro b h1 b' h2 ⟨rfl, rfl⟩ ⟨rfl, rfl⟩
  exact ⟨rfl, rfl⟩

theorem same_vec {p : Prog α Unit} {q : Sched α Unit} {y : Vec} {f g : Nat → α}
    (hp : Ends p h fun _ h' => y.Becomes h h' f) (hq : Surely q h fun _ h' => y.Becomes h h' g)
    (e : ∀ i, i < y.ext → g i = f i) : SameOutcome p q h := by
  refine same_of (P := fun _ h' => y.Becomes h h' f) ?_ hp (hq.mono fun _ h' hb => ⟨?_, hb.2⟩)
  · rintro _ h1 _ h2 b1 b2
    refine ⟨rfl, funext fun a => ?_⟩
    by_cases ha : y.Cell a
    · obtain ⟨i, hi, rfl⟩ := ha
      rw [b1.1 i hi, b2.1 i hi]
    · rw [b1.2 a ha, b2.2 a ha]
  · intro i hi
    rw [← e i hi]
    exact hb.1 i hi

theorem same_mat {p : Prog α Unit} {q : Sched α Unit} {C : Mat} {R : Region} {f g : Nat → Nat → α}
    (hp : Ends p h fun _ h' => C.BecomesOn h h' R f)
    (hq : Surely q h fun _ h' => C.BecomesOn h h' R g)
    (e : ∀ i j, i < C.rows → j < C.cols → R i j → g i j = f i j) : SameOutcome p q h := by
  refine same_of (P := fun _ h' => C.BecomesOn h h' R f) ?_ hp
    (hq.mono fun _ h' hb => ⟨?_, hb.2⟩)
  · rintro _ h1 _ h2 b1 b2
    refine ⟨rfl, funext fun a => ?_⟩
    by_cases ha : C.CellOn R a
    · obtain ⟨i, j, hi, hj, hr, rfl⟩ := ha
      rw [b1.1 i j hi hj hr, b2.1 i j hi hj hr]
    · rw [b1.2 a ha, b2.2 a ha]
  · intro i j hi hj hr
    rw [← e i j hi hj hr]
    exact hb.1 i j hi hj hr

theorem differ_vec {p : Prog α Unit} {q : Sched α Unit} {y : Vec} {f g : Nat → α}
    (hp : Ends p h fun _ h' => y.Becomes h h' f) (hq : Surely q h fun _ h' => y.Becomes h h' g)
    {i : Nat} (hi : i < y.ext) (e : f i ≠ g i) : DifferentOutcome p q h := by
  refine differ_of (P := fun _ h' => y.Becomes h h' f) (Q := fun _ h' => y.Becomes h h' g)
    ?_ hp hq
  intro _ h' b1 b2
  exact e (Option.some.inj ((b1.1 i hi).symm.trans (b2.1 i hi)))

theorem differ_mat {p : Prog α Unit} {q : Sched α Unit} {C : Mat} {R : Region}
    {f g : Nat → Nat → α} (hp : Ends p h fun _ h' => C.BecomesOn h h' R f)
    (hq : Surely q h fun _ h' => C.BecomesOn h h' R g) {i j : Nat} (hi : i < C.rows)
    (hj : j < C.cols) (hr : R i j) (e : f i j ≠ g i j) : DifferentOutcome p q h := by
  refine differ_of (P := fun _ h' => C.BecomesOn h h' R f)
    (Q := fun _ h' => C.BecomesOn h h' R g) ?_ hp hq
  intro _ h' b1 b2
  exact e (Option.some.inj ((b1.1 i j hi hj hr).symm.trans (b2.1 i j hi hj hr)))

theorem same_swap {p : Prog α Unit} {q : Sched α Unit} {C D : Nat → Prop}
    {P : Heap α → Prop} (loc : ∀ h1 h2, P h1 → P h2 → ∀ a, C a ∨ D a → h1 a = h2 a)
    (hp : Ends p h fun _ h' => P h' ∧ OnlyChanges (fun a => C a ∨ D a) h h')
    (hq : Surely q h fun _ h' => P h' ∧ OnlyChanges (fun a => C a ∨ D a) h h') :
    SameOutcome p q h := by
  refine same_of ?_ hp hq
  rintro _ h1 _ h2 ⟨p1, c1⟩ ⟨p2, c2⟩
  refine ⟨rfl, funext fun a => ?_⟩
  by_cases ha : C a ∨ D a
  · exact loc _ _ p1 p2 a ha
  · rw [c1 a ha, c2 a ha]

theorem surelyFails_bind_of {γ : Type} {q : Sched α β} {f : β → Sched α γ} {err : Err}
    {P : β → Heap α → Prop} (hq : Surely q h P)
    (hf : ∀ b h', P b h' → SurelyFails (f b) h' err) : SurelyFails (q >>= f) h err := by
  obtain ⟨⟨r, hr⟩, H⟩ := hq
  intro r'
  constructor
  · rintro (⟨e, he, rfl⟩ | ⟨b, h', hb, hr'⟩)
    · obtain ⟨b, h', e', _⟩ := H _ he
      cases e'
    · obtain ⟨b1, h1, e1, hp⟩ := H _ hb
      cases e1
      exact (hf b h' hp _).1 hr'
  · rintro rfl
    obtain ⟨b, h', rfl, hp⟩ := H r hr
    exact Or.inr ⟨b, h', hr, (hf b h' hp _).2 rfl⟩

end StdBLAS

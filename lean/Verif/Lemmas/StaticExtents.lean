import Verif.Model.StaticExtents

/-! # Well-formed calls and sizes -/

namespace StdBLAS.Extents
open Arg

theorem wf_nil : WellFormed [] := fun _ h => by simp at h

theorem wf_cons {c : Check} {l : List Check} :
    WellFormed (c :: l) ↔ (∀ v, c = .staticAssert v → v = true) ∧ WellFormed l := by
  constructor
  · intro h
    exact ⟨fun v e => h v (by simp [e]), fun v hv => h v (by simp [hv])⟩
  · rintro ⟨h1, h2⟩ v hv
    rcases List.mem_cons.1 hv with e | e
    · exact h1 v e.symm
    · exact h2 v e

theorem wf_append {l m : List Check} : WellFormed (l ++ m) ↔ WellFormed l ∧ WellFormed m := by
  constructor
  · intro h
    exact ⟨fun v hv => h v (by simp [hv]), fun v hv => h v (by simp [hv])⟩
  · rintro ⟨h1, h2⟩ v hv
    rcases List.mem_append.1 hv with e | e
    · exact h1 v e
    · exact h2 v e

theorem wf_discarded {l : List Check} (h : ∀ c ∈ l, ∃ v, c = .discarded v) : WellFormed l := by
  intro v hv
  obtain ⟨w, e⟩ := h _ hv
  cases e

theorem wf_assert {v : Bool} {l : List Check} :
    WellFormed (.staticAssert v :: l) ↔ v = true ∧ WellFormed l := by
  rw [wf_cons]
  constructor
  · exact fun h => ⟨h.1 v rfl, h.2⟩
  · rintro ⟨h1, h2⟩
    exact ⟨fun w e => by cases e; exact h1, h2⟩

theorem match_iff (a c : Option Nat) :
    staticExtentMatch a c = true ↔ ∀ m n, a = some m → c = some n → m = n := by
  cases a <;> cases c <;> simp [staticExtentMatch]

theorem triangle_iff (p : Option Triangle) (t : Triangle) :
    triangleLayoutMatch p t = true ↔ ∀ t', p = some t' → t' = t := by
  cases p <;> simp [triangleLayoutMatch]

theorem wf_mustMatch {st : Statics} {u v : Arg} {r s : Nat} {l : List Check} :
    WellFormed (st.mustMatch u r v s :: l) ↔
      (∀ m n, st u r = some m → st v s = some n → m = n) ∧ WellFormed l := by
  rw [Statics.mustMatch, wf_assert, match_iff]

theorem wf_triangle {p : Option Triangle} {t : Triangle} {l : List Check} :
    WellFormed (.staticAssert (triangleLayoutMatch p t) :: l) ↔
      (∀ t', p = some t' → t' = t) ∧ WellFormed l := by
  rw [wf_assert, triangle_iff]

/-- Equal run-time extents have static extents that match. -/
theorem Statics.Allows.eq {st : Statics} {n : Sizes} (h : st.Allows n) {u v : Arg} {r s : Nat}
    (e : n u r = n v s) : ∀ k l, st u r = some k → st v s = some l → k = l := fun k l hk hl => by
  rw [← h u r k hk, ← h v s l hl, e]

/-- Run-time extents: the static ones, and `v` for the others. -/
def fill (st : Statics) (v : Arg → Nat → Nat) : Sizes := fun a r => (st a r).getD (v a r)

theorem allows_fill (st : Statics) (v : Arg → Nat → Nat) : st.Allows (fill st v) := by
  intro a r k h
  simp [fill, h]

theorem getD_eq {a : Option Nat} {v : Nat} (h : ∀ m, a = some m → m = v) : a.getD v = v := by
  cases a with
  | none => rfl
  | some m => exact h m rfl

theorem pair_value {a c : Option Nat} (h : ∀ m n, a = some m → c = some n → m = n) :
    ∃ v, a.getD v = v ∧ c.getD v = v := by
  cases a with
  | some m => exact ⟨m, rfl, getD_eq fun n hn => (h m n rfl hn).symm⟩
  | none => exact ⟨c.getD 0, rfl, by cases c <;> rfl⟩

theorem triple_value {a c d : Option Nat} (h : ∀ m n, a = some m → c = some n → m = n)
    (h1 : ∀ m n, a = some m → d = some n → m = n) (h2 : ∀ m n, c = some m → d = some n → m = n) :
    ∃ v, a.getD v = v ∧ c.getD v = v ∧ d.getD v = v := by
  cases a with
  | some m =>
    exact ⟨m, rfl, getD_eq fun n hn => (h m n rfl hn).symm, getD_eq fun n hn => (h1 m n rfl hn).symm⟩
  | none =>
    obtain ⟨v, e1, e2⟩ := pair_value h2
    exact ⟨v, rfl, e1, e2⟩

end StdBLAS.Extents

import Verif.Spec.CallForms

/-!
Computable form of `Ends`, and a criterion for calls that never end.
-/

namespace StdBLAS.Overloads

/-- The calls that follow end within `n` levels. -/
def endsWithin (W : World) (adl : Bool) : Nat → List Sig → List Arg → Bool
  | 0, _, _ => false
  | n + 1, os, as => match resolve os as with
    | .selected o => o.calls.all fun c => !c.made as ||
        match evalArgs W as c.args with
        | some bs => endsWithin W adl n (visible o adl (sigs c.fn)) bs
        | none => false
    | _ => false

theorem ends_of_endsWithin {W : World} {adl : Bool} :
    ∀ {n os as}, endsWithin W adl n os as = true → Ends W adl os as
  | 0, _, _, h => by simp [endsWithin] at h
  | n + 1, os, as, h => by
    rw [endsWithin] at h
    split at h
    · rename_i o ho
      rw [List.all_eq_true] at h
      refine .mk ho ?_ ?_
      · intro c hc hm
        have := h c hc
        rw [hm] at this
        cases he : evalArgs W as c.args with
        | none => simp [he] at this
        | some bs => rfl
      · intro c hc hm bs hb
        have := h c hc
        rw [hm, hb] at this
        exact ends_of_endsWithin (by simpa using this)
    · cases h

/-- A call that leads to itself is endless. -/
theorem endless_of_loop {W : World} {adl : Bool} {os : List Sig} {as : List Arg} {o : Sig}
    {c : CallOf Algo} (h : resolve os as = .selected o) (hc : c ∈ o.calls)
    (hm : c.made as = true) (hb : evalArgs W as c.args = some as)
    (hv : visible o adl (sigs c.fn) = os) : Endless W adl os as :=
  ⟨fun _ => (os, as), rfl, fun _ => ⟨o, c, h, hc, hm, hv.symm, hb⟩⟩

/-- A call is endless if one that follows from it is. -/
theorem endless_of_next {W : World} {adl : Bool} {os : List Sig} {as bs : List Arg} {o : Sig}
    {c : CallOf Algo} (h : resolve os as = .selected o) (hc : c ∈ o.calls)
    (hm : c.made as = true) (hb : evalArgs W as c.args = some bs)
    (hn : Endless W adl (visible o adl (sigs c.fn)) bs) : Endless W adl os as := by
  obtain ⟨s, h0, hs⟩ := hn
  refine ⟨fun n => n.casesOn (os, as) s, rfl, ?_⟩
  rintro (_ | n)
  · change Follows W adl (os, as) (s 0)
    rw [h0]
    exact ⟨o, c, h, hc, hm, rfl, hb⟩
  · exact hs n

/-- Calls that end are not endless. -/
theorem not_endless_of_ends {W : World} {adl : Bool} {os : List Sig} {as : List Arg}
    (h : Ends W adl os as) : ¬ Endless W adl os as := by
  induction h with
  | mk h' _ next ih =>
    rintro ⟨s, h0, hs⟩
    obtain ⟨o, c, h, hc, hm, hv, hb⟩ := hs 0
    rw [h0] at h hm hb
    rw [h'] at h
    cases h
    exact ih c hc hm _ hb ⟨fun n => s (n + 1), by rw [← hv], fun n => hs (n + 1)⟩

/-- Calls that end do not break inside. -/
theorem not_breaks_of_ends {W : World} {adl : Bool} {os : List Sig} {as : List Arg}
    (h : Ends W adl os as) : ¬ BreaksInside W adl os as := by
  rintro ⟨q, hq, hn⟩
  have key : ∀ p, Relation.TransGen (Follows W adl) p q → ¬ Ends W adl p.1 p.2 := by
    intro p hp
    induction hp using Relation.TransGen.head_induction_on with
    | single hf =>
      rintro ⟨h', _, next⟩
      obtain ⟨o, c, h, hc, hm, hv, hb⟩ := hf
      rw [h'] at h
      cases h
      obtain ⟨h2, _, _⟩ := next c hc hm _ hb
      rw [← hv, hn] at h2
      cases h2
    | head hf _ ih =>
      rintro ⟨h', _, next⟩
      obtain ⟨o, c, h, hc, hm, hv, hb⟩ := hf
      rw [h'] at h
      cases h
      exact ih (hv ▸ next c hc hm _ hb)
  exact key _ hq h

theorem breaks_of_next {W : World} {adl : Bool} {os : List Sig} {as bs : List Arg} {o : Sig}
    {c : CallOf Algo} (h : resolve os as = .selected o) (hc : c ∈ o.calls)
    (hm : c.made as = true) (hb : evalArgs W as c.args = some bs)
    (hn : resolve (visible o adl (sigs c.fn)) bs = .none) : BreaksInside W adl os as :=
  ⟨(_, bs), .single ⟨o, c, h, hc, hm, rfl, hb⟩, hn⟩

/-- Follows the calls, at each overload the first one that is made, to the native
overload of `g` with the parameters `names`. -/
def followTo (W : World) (adl : Bool) (g : Algo) (names : List PName) :
    Nat → Algo → List Sig → List Arg → Option (Sig × List Arg)
  | 0, _, _, _ => none
  | n + 1, f, os, as => match resolve os as with
    | .selected o =>
      if f = g ∧ o.names = names ∧ o.pats.head? = some .inlineRef then some (o, as)
      else match o.calls.find? (fun c => c.made as) with
        | some c => match evalArgs W as c.args with
          | some bs => followTo W adl g names n c.fn (visible o adl (sigs c.fn)) bs
          | none => none
        | none => none
    | _ => none

theorem reaches_of_followTo {W : World} {adl : Bool} {g : Algo} {names : List PName}
    {o : Sig} {cs : List Arg} : ∀ {n f os as},
    followTo W adl g names n f os as = some (o, cs) → Reaches W adl g o cs f os as
  | 0, _, _, _, h => by simp [followTo] at h
  | n + 1, f, os, as, h => by
    rw [followTo] at h
    split at h
    · rename_i o' ho
      split at h
      · rename_i hf
        cases h
        obtain ⟨rfl, _⟩ := hf
        exact .here ho
      · split at h
        · rename_i c hc
          split at h
          · rename_i bs hb
            have hm := List.find?_some (p := fun c : CallOf Algo => c.made as) hc
            exact .next ho (List.mem_of_find?_eq_some hc) hm hb (reaches_of_followTo h)
          · cases h
        · cases h
    · cases h

/-- A call of an overload that makes one call. -/
theorem Ends.step {W : World} {adl : Bool} {os : List Sig} {as bs : List Arg} {o : Sig}
    {c : CallOf Algo} (h : resolve os as = .selected o) (hc : o.calls = [c])
    (hb : evalArgs W as c.args = some bs)
    (hn : Ends W adl (visible o adl (sigs c.fn)) bs) : Ends W adl os as := by
  refine .mk h ?_ ?_
  · intro c' hc' _
    rw [hc, List.mem_singleton] at hc'
    subst hc'
    rw [hb]
    rfl
  · intro c' hc' _ bs' hb'
    rw [hc, List.mem_singleton] at hc'
    subst hc'
    rw [hb] at hb'
    cases hb'
    exact hn

/-- A call of an overload that makes no calls. -/
theorem Ends.stop {W : World} {adl : Bool} {os : List Sig} {as : List Arg} {o : Sig}
    (h : resolve os as = .selected o) (hc : o.calls = []) : Ends W adl os as :=
  .mk h (by simp [hc]) (by simp [hc])

end StdBLAS.Overloads

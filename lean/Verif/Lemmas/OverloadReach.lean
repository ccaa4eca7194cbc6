import Verif.Lemmas.OverloadCalls

/-!
The native algorithm that the documented calls reach, list by list.
-/

namespace StdBLAS.Overloads

theorem reaches_native {W : World} {adl : Bool} {fm : Form} {as bs : List Arg} (n : Nat)
    {o : Sig} {cs : List Arg}
    (h : followTo W adl fm.native (.exec :: fm.nativeParams.map Prod.fst) n fm.fn
      (sigs fm.fn) bs = some (o, cs)) (h' : fm.IsNative W as o cs) :
    ∃ o cs, Reaches W adl fm.native o cs fm.fn (sigs fm.fn) bs ∧ fm.IsNative W as o cs :=
  ⟨o, cs, reaches_of_followTo h, h'⟩

theorem reaches_here {W : World} {adl : Bool} {f g : Algo} {os : List Sig} {as : List Arg}
    {o : Sig} {P : Sig → List Arg → Prop} (hf : g = f) (h : resolve os as = .selected o)
    (hP : P o as) : ∃ o cs, Reaches W adl f o cs g os as ∧ P o cs :=
  ⟨o, as, hf ▸ .here h, hP⟩

theorem reaches_step {W : World} {adl : Bool} {f g : Algo} {os : List Sig}
    {as bs : List Arg} {o' : Sig} {c : CallOf Algo} {l : List (CallOf Algo)}
    {P : Sig → List Arg → Prop} (h : resolve os as = .selected o') (hc : o'.calls = c :: l)
    (hm : c.made as = true) (hb : evalArgs W as c.args = some bs)
    (hn : ∃ o cs, Reaches W adl f o cs c.fn (visible o' adl (sigs c.fn)) bs ∧ P o cs) :
    ∃ o cs, Reaches W adl f o cs g os as ∧ P o cs := by
  obtain ⟨o, cs, hr, hP⟩ := hn
  exact ⟨o, cs, .next h (by rw [hc]; exact .head _) hm hb hr, hP⟩

set_option maxHeartbeats 1000000 in
theorem reaches_documented (W : World) (adl : Bool) :
    ∀ fm ∈ documented, ∀ r ρ as, fm.Fits r ρ as →
    ∃ o cs, Reaches W adl fm.native o cs fm.fn (sigs fm.fn) as ∧ fm.IsNative W as o cs := by
  cases adl
  all_goals split_forms
  all_goals intro r ρ as h
  all_goals split_args h
  all_goals exact reaches_native 7 rfl ⟨rfl, rfl, rfl⟩

set_option maxHeartbeats 1000000 in
theorem reaches_documented_policy (W : World) (adl : Bool) :
    ∀ fm ∈ documented, ∀ r ρ as, fm.Fits r ρ as → ∀ p, IsForeign p →
    ∃ o cs, Reaches W adl fm.native o cs fm.fn (sigs fm.fn) (p :: as) ∧
      fm.IsNative W as o cs := by
  cases adl
  all_goals split_forms
  all_goals intro r ρ as h p hp
  all_goals cases hp
  all_goals split_args h
  all_goals exact reaches_native 7 rfl ⟨rfl, rfl, rfl⟩

set_option maxHeartbeats 1000000 in
theorem reaches_anyRank (W : World) (adl : Bool) :
    ∀ fm ∈ documentedAnyRank, ∀ r ρ as, r ≤ 2 → fm.Fits r ρ as →
    ∃ o cs, Reaches W adl fm.native o cs fm.fn (sigs fm.fn) as ∧ fm.IsNative W as o cs := by
  cases adl
  all_goals split_forms
  all_goals intro r ρ as hr h
  all_goals split_args h
  all_goals interval_cases r
  all_goals exact reaches_native 7 rfl ⟨rfl, rfl, rfl⟩

set_option maxHeartbeats 1000000 in
theorem reaches_anyRank_policy (W : World) (adl : Bool) :
    ∀ fm ∈ documentedAnyRank, ∀ r ρ as, r ≤ 2 → fm.Fits r ρ as → ∀ p, IsForeign p →
    ∃ o cs, Reaches W adl fm.native o cs fm.fn (sigs fm.fn) (p :: as) ∧
      fm.IsNative W as o cs := by
  cases adl
  all_goals split_forms
  all_goals intro r ρ as hr h p hp
  all_goals cases hp
  all_goals split_args h
  all_goals interval_cases r
  all_goals exact reaches_native 7 rfl ⟨rfl, rfl, rfl⟩

set_option maxHeartbeats 1000000 in
theorem reaches_givens (W : World) (adl : Bool) :
    ∀ fm ∈ documentedGivens, ∀ r ρ as, fm.Fits r ρ as →
    ∃ o cs, Reaches W adl fm.native o cs fm.fn (sigs fm.fn) as ∧ fm.IsNative W as o cs := by
  cases adl
  all_goals split_forms
  all_goals intro r ρ as h
  all_goals split_args h
  all_goals
    refine reaches_step (by resolve_rfl) rfl rfl rfl ?_
    refine reaches_step (by resolve_rfl) rfl rfl rfl ?_
    exact reaches_here rfl (by resolve_rfl) ⟨rfl, rfl, rfl⟩

set_option maxHeartbeats 1000000 in
theorem reaches_givens_policy (W : World) (adl : Bool) :
    ∀ fm ∈ documentedGivens, ∀ r ρ as, fm.Fits r ρ as → ∀ p, IsForeign p →
    ∃ o cs, Reaches W adl fm.native o cs fm.fn (sigs fm.fn) (p :: as) ∧
      fm.IsNative W as o cs := by
  cases adl
  all_goals split_forms
  all_goals intro r ρ as h p hp
  all_goals cases hp
  all_goals split_args h
  all_goals
    refine reaches_step (by resolve_rfl) rfl rfl rfl ?_
    exact reaches_here rfl (by resolve_rfl) ⟨rfl, rfl, rfl⟩

set_option maxHeartbeats 1000000 in
theorem reaches_scaled (W : World) (adl : Bool) :
    ∀ fm ∈ documentedScaled, ∀ r ρ as, fm.Fits r ρ as →
    ∃ o cs, Reaches W adl fm.native o cs fm.fn (sigs fm.fn) as ∧ fm.IsNative W as o cs := by
  cases adl
  all_goals split_forms
  all_goals intro r ρ as h
  all_goals split_args h
  all_goals exact reaches_native 7 rfl ⟨rfl, rfl, rfl⟩

set_option maxHeartbeats 1000000 in
theorem reaches_scaled_policy (W : World) (adl : Bool) :
    ∀ fm ∈ documentedScaled, ∀ r ρ as, fm.Fits r ρ as → ∀ k,
    ∃ o cs, Reaches W adl fm.native o cs fm.fn (sigs fm.fn) (⟨.policy k, .rvalue⟩ :: as) ∧
      fm.IsNative W as o cs := by
  cases adl
  all_goals split_forms
  all_goals intro r ρ as h k
  all_goals split_args h
  all_goals exact reaches_native 7 rfl ⟨rfl, rfl, rfl⟩

end StdBLAS.Overloads

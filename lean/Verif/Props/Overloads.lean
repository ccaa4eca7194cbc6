import Verif.Lemmas.OverloadReach

/-!
C64: which function a call runs. Every documented way to call an algorithm selects
exactly one overload, the one with these parameters, for all types and value
categories of the arguments; the calls inside the library that follow end at the
native algorithm of the form with the same arguments.
-/

namespace StdBLAS.Overloads

/-! ### The overload that a call selects -/

/-- A documented call without policy selects the overload with its parameters, for
all types and value categories of the arguments. -/
theorem C64_call_without_policy :
    ∀ fm ∈ documented ++ documentedGivens ++ documentedAnyRank ++ documentedScaled ++ documentedNoPolicy,
    ∀ r ρ as, fm.Fits r ρ as →
    ∃ o, resolve (sigs fm.fn) as = .selected o ∧ fm.IsPlain o := by
  split_forms
  all_goals
    intro r ρ as h
    split_args h
  all_goals
    first
    | (refine ⟨_, rfl, rfl, ?_⟩; repeat' constructor)
    | (refine ⟨_, by resolve_rfl, rfl, ?_⟩; repeat' constructor)

example : ∃ o, resolve (sigs .matrixProduct) [⟨.span 2 true 0, .lvalue⟩,
    ⟨.span 2 false 1, .constLvalue⟩, ⟨.span 2 true 2, .lvalue⟩, ⟨.span 2 true 2, .lvalue⟩] =
      .selected o ∧ o.names = [.A, .B, .E, .C] :=
  (C64_call_without_policy (own .matrixProduct [(.A, .mat), (.B, .mat), (.E, .mat), (.C, .mat)])
    (by simp [documented]) 0 0 _ (.cons (.mat _ _ _) (.cons (.mat _ _ _)
      (.cons (.mat _ _ _) (.cons (.mat _ _ _) .nil))))).imp fun _ h => ⟨h.1, h.2.1⟩

/-- A documented call with a policy selects the overload with an execution policy and
its parameters, for every argument in front that is no `mdspan` (policies the library
recognises and others), of all types and value categories. -/
theorem C64_call_with_policy :
    ∀ fm ∈ documented ++ documentedGivens ++ documentedAnyRank,
    ∀ r ρ as, fm.Fits r ρ as → ∀ p, IsForeign p →
    ∃ o, resolve (sigs fm.fn) (p :: as) = .selected o ∧ fm.IsPolicy o := by
  split_forms
  all_goals
    intro r ρ as h p hp
    cases hp
  all_goals
    split_args h
  all_goals
    first
    | (refine ⟨_, rfl, rfl, _, _, rfl, ?_⟩; repeat' constructor)
    | (refine ⟨_, by resolve_rfl, rfl, _, _, rfl, ?_⟩; repeat' constructor)

example : ∃ o, resolve (sigs .dot) [⟨.policy 3, .lvalue⟩, ⟨.span 1 true 0, .lvalue⟩,
    ⟨.span 1 true 1, .rvalue⟩, ⟨.num .real 7, .rvalue⟩] = .selected o ∧
      o.names = [.exec, .v1, .v2, .init] :=
  (C64_call_with_policy (own .dot [(.v1, .vec), (.v2, .vec), (.init, .scalar)])
    (by simp [documented]) 0 0 _ (.cons (.vec _ _ _) (.cons (.vec _ _ _)
      (.cons (.scalar _ _ _) .nil))) _ (.policy 3 .lvalue)).imp fun _ h => ⟨h.1, h.2.1⟩

/-- The functions with a policy and a scaling factor: a call with a recognised policy
selects the overload with an execution policy and its parameters if the policy is an
rvalue. Missing: lvalues (`C64_lvalue_policy_false`) and policy types that are not
registered (`C64_unregistered_policy_false`). -/
theorem C64_scaled_call_with_policy_partial :
    ∀ fm ∈ documentedScaled, ∀ r ρ as, fm.Fits r ρ as → ∀ k,
    ∃ o, resolve (sigs fm.fn) (⟨.policy k, .rvalue⟩ :: as) = .selected o ∧ fm.IsPolicy o := by
  split_forms
  all_goals
    intro r ρ as h k
    split_args h
  all_goals
    refine ⟨_, rfl, rfl, _, _, rfl, ?_⟩; repeat' constructor

example := C64_scaled_call_with_policy_partial
  (own .symmetricMatrixRank1Update [(.x, .vec), (.A, .mat), (.t, .triangle)])
  (by simp [documentedScaled]) 0 0 _ (.cons (.vec true 1 .lvalue) (.cons (.mat true 0 .lvalue)
      (.cons (.triangle true .rvalue) .nil))) 2

/-- For these functions a policy that is an lvalue, like `std::execution::par`,
selects no overload: the call is ill-formed. -/
theorem C64_lvalue_policy_false :
    ∀ fm ∈ documentedScaled, ∀ r ρ as, fm.Fits r ρ as → ∀ k c, c ≠ .rvalue →
    resolve (sigs fm.fn) (⟨.policy k, c⟩ :: as) = .none := by
  split_forms
  all_goals
    intro r ρ as h k c hc
    split_args h
  all_goals
    cases c <;> first | rfl | exact absurd rfl hc

example : resolve (sigs .symmetricMatrixRank1Update) [⟨.policy 2, .lvalue⟩,
    ⟨.span 1 true 1, .lvalue⟩, ⟨.span 2 true 0, .lvalue⟩, ⟨.tri true, .rvalue⟩] = .none :=
  C64_lvalue_policy_false
    (own .symmetricMatrixRank1Update [(.x, .vec), (.A, .mat), (.t, .triangle)])
    (by simp [documentedScaled]) 0 0 _ (.cons (.vec true 1 .lvalue) (.cons (.mat true 0 .lvalue)
      (.cons (.triangle true .rvalue) .nil))) 2 .lvalue (by decide)

/-- For these functions a policy type that is not registered is taken for the scaling
factor. -/
theorem C64_unregistered_policy_false :
    ∀ fm ∈ documentedScaled, fm.names.head? ≠ some .alpha →
    ∀ r ρ as, fm.Fits r ρ as → ∀ k c,
    ∃ o, resolve (sigs fm.fn) (⟨.other k, c⟩ :: as) = .selected o ∧
      o.names = .alpha :: fm.names := by
  split_forms
  all_goals
    intro hn r ρ as h k c
    split_args h
  all_goals
    first
    | exact ⟨_, rfl, rfl⟩
    | exact absurd rfl hn

example := C64_unregistered_policy_false
  (own .symmetricMatrixRank1Update [(.x, .vec), (.A, .mat), (.t, .triangle)])
  (by simp [documentedScaled]) (by decide) 0 0 _ (.cons (.vec true 1 .lvalue) (.cons (.mat true 0 .lvalue)
      (.cons (.triangle true .rvalue) .nil))) 2 .lvalue

/-! ### The calls that follow -/

/-- After a documented call without policy every call inside the library selects one
overload, and there are finitely many, whether or not argument-dependent lookup finds
the overloads declared later; arrays of any rank that the loops support. -/
theorem C64_calls_end_without_policy (W : World) (adl : Bool) :
    ∀ fm ∈ documented ++ documentedGivens ++ documentedAnyRank ++ documentedScaled ++ documentedNoPolicy,
    ∀ r ρ as, r ≤ 2 → fm.Fits r ρ as →
    Ends W adl (sigs fm.fn) as ∧ ¬ Endless W adl (sigs fm.fn) as ∧
      ¬ BreaksInside W adl (sigs fm.fn) as := by
  intro fm hm r ρ as hr h
  have he : Ends W adl (sigs fm.fn) as := by
    simp only [List.mem_append] at hm
    rcases hm with (((hm | hm) | hm) | hm) | hm
    · exact ends_documented W adl fm hm r ρ as h
    · exact ends_givens W adl fm hm r ρ as h
    · exact ends_anyRank W adl fm hm r ρ as hr h
    · exact ends_scaled W adl fm hm r ρ as h
    · exact ends_noPolicy W adl fm hm r ρ as h
  exact ⟨he, not_endless_of_ends he, not_breaks_of_ends he⟩

example := C64_calls_end_without_policy ⟨id, .real, 0, 0⟩ false
  (own .triangularMatrixVectorProduct
    [(.A, .umat), (.t, .triangle), (.d, .diagonal), (.y, .vec)])
  (by simp [documented]) 0 0 _ (by decide) (.cons (.umat 0 .lvalue) (.cons (.triangle true .rvalue)
      (.cons (.diagonal false .rvalue) (.cons (.vec true 1 .lvalue) .nil))))
example := C64_calls_end_without_policy ⟨id, .real, 0, 0⟩ true (own .copy [(.x, .arr), (.y, .arr)])
  (by simp [documentedAnyRank]) 2 0 _ (by decide) (.cons (.arr true 0 .lvalue) (.cons (.arr true 1 .lvalue) .nil))

/-- The same after a documented call with a policy. -/
theorem C64_calls_end_with_policy (W : World) (adl : Bool) :
    ∀ fm ∈ documented ++ documentedGivens ++ documentedAnyRank,
    ∀ r ρ as, r ≤ 2 → fm.Fits r ρ as → ∀ p, IsForeign p →
    Ends W adl (sigs fm.fn) (p :: as) ∧ ¬ Endless W adl (sigs fm.fn) (p :: as) ∧
      ¬ BreaksInside W adl (sigs fm.fn) (p :: as) := by
  intro fm hm r ρ as hr h p hp
  have he : Ends W adl (sigs fm.fn) (p :: as) := by
    simp only [List.mem_append] at hm
    rcases hm with (hm | hm) | hm
    · exact ends_documented_policy W adl fm hm r ρ as h p hp
    · exact ends_givens_policy W adl fm hm r ρ as h p hp
    · exact ends_anyRank_policy W adl fm hm r ρ as hr h p hp
  exact ⟨he, not_endless_of_ends he, not_breaks_of_ends he⟩

example := C64_calls_end_with_policy ⟨id, .real, 0, 0⟩ false (own .copy [(.x, .arr), (.y, .arr)])
  (by simp [documentedAnyRank]) 2 0 _ (by decide) (.cons (.arr true 0 .lvalue) (.cons (.arr true 1 .lvalue) .nil))
  _ (.policy 1 .lvalue)

/-- The same for the functions with a policy and a scaling factor. Missing: as in
`C64_scaled_call_with_policy_partial`. -/
theorem C64_scaled_calls_end_partial (W : World) (adl : Bool) :
    ∀ fm ∈ documentedScaled, ∀ r ρ as, fm.Fits r ρ as → ∀ k,
    Ends W adl (sigs fm.fn) (⟨.policy k, .rvalue⟩ :: as) ∧
      ¬ Endless W adl (sigs fm.fn) (⟨.policy k, .rvalue⟩ :: as) ∧
      ¬ BreaksInside W adl (sigs fm.fn) (⟨.policy k, .rvalue⟩ :: as) := by
  intro fm hm r ρ as h k
  have he := ends_scaled_policy W adl fm hm r ρ as h k
  exact ⟨he, not_endless_of_ends he, not_breaks_of_ends he⟩

example := C64_scaled_calls_end_partial ⟨id, .real, 0, 0⟩ false
  (own .symmetricMatrixRank1Update [(.x, .vec), (.A, .mat), (.t, .triangle)])
  (by simp [documentedScaled]) 0 0 _ (.cons (.vec true 1 .lvalue) (.cons (.mat true 0 .lvalue)
      (.cons (.triangle true .rvalue) .nil))) 2

/-- After a documented call without policy the native algorithm of the form runs, on
arguments of the types given. -/
theorem C64_reaches_native_without_policy (W : World) (adl : Bool) :
    ∀ fm ∈ documented ++ documentedGivens ++ documentedAnyRank ++ documentedScaled,
    ∀ r ρ as, r ≤ 2 → fm.Fits r ρ as →
    ∃ o cs, Reaches W adl fm.native o cs fm.fn (sigs fm.fn) as ∧ fm.IsNative W as o cs := by
  intro fm hm r ρ as hr h
  simp only [List.mem_append] at hm
  rcases hm with ((hm | hm) | hm) | hm
  · exact reaches_documented W adl fm hm r ρ as h
  · exact reaches_givens W adl fm hm r ρ as h
  · exact reaches_anyRank W adl fm hm r ρ as hr h
  · exact reaches_scaled W adl fm hm r ρ as h

example := C64_reaches_native_without_policy ⟨id, .real, 0, 0⟩ false
  ⟨.dotc, [(.v1, .vec), (.v2, .vec)], .dot,
    [(.v1, .conj 0), (.v2, .arg 1), (.init, .result)]⟩
  (by simp [documented]) 0 0 _ (by decide) (.cons (.vec true 0 .lvalue) (.cons (.vec true 1 .lvalue) .nil))

/-- After a documented call with a policy the same native algorithm runs, on arguments
of the same types. -/
theorem C64_reaches_native_with_policy (W : World) (adl : Bool) :
    ∀ fm ∈ documented ++ documentedGivens ++ documentedAnyRank,
    ∀ r ρ as, r ≤ 2 → fm.Fits r ρ as → ∀ p, IsForeign p →
    ∃ o cs, Reaches W adl fm.native o cs fm.fn (sigs fm.fn) (p :: as) ∧
      fm.IsNative W as o cs := by
  intro fm hm r ρ as hr h p hp
  simp only [List.mem_append] at hm
  rcases hm with (hm | hm) | hm
  · exact reaches_documented_policy W adl fm hm r ρ as h p hp
  · exact reaches_givens_policy W adl fm hm r ρ as h p hp
  · exact reaches_anyRank_policy W adl fm hm r ρ as hr h p hp

example := C64_reaches_native_with_policy ⟨id, .real, 0, 0⟩ false
  ⟨.dotc, [(.v1, .vec), (.v2, .vec)], .dot,
    [(.v1, .conj 0), (.v2, .arg 1), (.init, .result)]⟩
  (by simp [documented]) 0 0 _ (by decide) (.cons (.vec true 0 .lvalue) (.cons (.vec true 1 .lvalue) .nil))
  _ (.policy 1 .lvalue)

/-- The same for the functions with a policy and a scaling factor. Missing: as in
`C64_scaled_call_with_policy_partial`. -/
theorem C64_scaled_reaches_native_partial (W : World) (adl : Bool) :
    ∀ fm ∈ documentedScaled, ∀ r ρ as, fm.Fits r ρ as → ∀ k,
    ∃ o cs, Reaches W adl fm.native o cs fm.fn (sigs fm.fn) (⟨.policy k, .rvalue⟩ :: as) ∧
      fm.IsNative W as o cs :=
  reaches_scaled_policy W adl

example := C64_scaled_reaches_native_partial ⟨id, .real, 0, 0⟩ false
  (own .symmetricMatrixRank1Update [(.x, .vec), (.A, .mat), (.t, .triangle)])
  (by simp [documentedScaled]) 0 0 _ (.cons (.vec true 1 .lvalue) (.cons (.mat true 0 .lvalue)
      (.cons (.triangle true .rvalue) .nil))) 2

/-! ### Calls that compile and do not end, or fail inside the library -/

/-- `copy` of arrays of rank 3 and more is accepted, with and without policy, and
calls itself for ever (blas1_linalg_copy.hpp:129-204). -/
theorem C64_copy_rank3_endless_false (W : World) (adl : Bool) :
    ∀ r, 3 ≤ r → ∀ ρ x y, Role.Admits r ρ .arr x → Role.Admits r ρ .arr y →
    Endless W adl (sigs .copy) [x, y] ∧
      ∀ p, IsForeign p → Endless W adl (sigs .copy) [p, x, y] := by
  intro r hr ρ x y hx hy
  obtain ⟨r, rfl⟩ := Nat.exists_eq_add_of_le hr
  rw [Nat.add_comm] at hx hy
  cases hx
  cases hy
  constructor
  · cases adl
    all_goals
      refine endless_of_next (by resolve_rfl) (.head _) rfl rfl ?_
      refine endless_of_next (by resolve_rfl) (.head _) rfl rfl ?_
      exact endless_of_loop (by resolve_rfl) (.head _) rfl rfl rfl
  · intro p hp
    cases hp
    all_goals cases adl
    all_goals
      refine endless_of_next (by resolve_rfl) (.head _) rfl rfl ?_
      exact endless_of_loop (by resolve_rfl) (.head _) rfl rfl rfl

example : Endless ⟨id, .real, 0, 0⟩ false (sigs .copy)
    [⟨.span 3 true 0, .lvalue⟩, ⟨.span 3 true 0, .lvalue⟩] :=
  (C64_copy_rank3_endless_false _ _ 3 (by decide) 0 _ _ (.arr _ _ _) (.arr _ _ _)).1

/-- With a policy and a matrix whose layout is not always unique, the overwriting
symmetric and triangular products and the triangular product in place are accepted and
call themselves for ever (blas2_matrix_vector_product.hpp:506-590, 1019-1116,
1306-1388). -/
theorem C64_nonunique_layout_endless_false (W : World) (adl : Bool) (p A t d x y : Arg)
    (hp : IsForeign p) (hA : ∃ k c, A = ⟨.span 2 false k, c⟩)
    (ht : Role.Admits 0 0 .triangle t) (hd : Role.Admits 0 0 .diagonal d)
    (hx : Role.Admits 0 0 .vec x) (hy : Role.Admits 0 0 .vec y) :
    Endless W adl (sigs .symmetricMatrixVectorProduct) [p, A, t, x, y] ∧
    Endless W adl (sigs .triangularMatrixVectorProduct) [p, A, t, d, x, y] ∧
    Endless W adl (sigs .triangularMatrixVectorProduct) [p, A, t, d, y] := by
  obtain ⟨_, _, rfl⟩ := hA
  cases hp
  all_goals
    cases ht
    cases hd
    cases hx
    cases hy
    cases adl
  all_goals refine ⟨?_, ?_, ?_⟩
  all_goals
    refine endless_of_next rfl (.head _) rfl rfl ?_
    exact endless_of_loop rfl (.head _) rfl rfl rfl

example := C64_nonunique_layout_endless_false ⟨id, .real, 0, 0⟩ false _ _ _ _ _ _ (.policy 1 .lvalue)
  ⟨5, .lvalue, rfl⟩ (.triangle true .rvalue) (.diagonal false .rvalue) (.vec true 0 .lvalue)
  (.vec true 1 .lvalue)

/-- With such a matrix the overwriting product without policy, and the updating
symmetric, Hermitian and triangular products with a policy, are accepted at the call
of the user and fail to compile inside the library. -/
theorem C64_nonunique_layout_breaks_false (W : World) (adl : Bool) (p A t d x y z : Arg)
    (hp : IsForeign p) (hA : ∃ k c, A = ⟨.span 2 false k, c⟩)
    (ht : Role.Admits 0 0 .triangle t) (hd : Role.Admits 0 0 .diagonal d)
    (hx : Role.Admits 0 0 .vec x) (hy : Role.Admits 0 0 .vec y)
    (hz : Role.Admits 0 0 .vec z) :
    BreaksInside W adl (sigs .matrixVectorProduct) [A, x, y] ∧
    BreaksInside W adl (sigs .symmetricMatrixVectorProduct) [p, A, t, x, y, z] ∧
    BreaksInside W adl (sigs .hermitianMatrixVectorProduct) [p, A, t, x, y, z] ∧
    BreaksInside W adl (sigs .triangularMatrixVectorProduct) [p, A, t, d, x, y, z] := by
  obtain ⟨_, _, rfl⟩ := hA
  cases hp
  all_goals
    cases ht
    cases hd
    cases hx
    cases hy
    cases hz
    cases adl
  all_goals refine ⟨?_, ?_, ?_, ?_⟩
  all_goals exact breaks_of_next rfl (.head _) rfl rfl rfl

example := C64_nonunique_layout_breaks_false ⟨id, .real, 0, 0⟩ false _ _ _ _ _ _ _ (.policy 1 .lvalue)
  ⟨5, .lvalue, rfl⟩ (.triangle true .rvalue) (.diagonal false .rvalue) (.vec true 0 .lvalue)
  (.vec true 1 .lvalue) (.vec true 2 .lvalue)

end StdBLAS.Overloads

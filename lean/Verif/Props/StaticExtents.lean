import Verif.Lemmas.StaticExtents

/-!
# Property C63: compile-time checks of sizes

For every combination of static and dynamic extents: a call whose run-time sizes fit compiles, and
a call whose static extents exclude that the sizes fit does not compile.  Both together:
"well-formed iff `Possible`".

The second half is false in many cases: most native algorithms have no check; the Kokkos backend
computes the checks of `add`, `swap_elements`, `matrix_vector_product`, `matrix_product` and others
without asserting them; and its other checks compare neighbours only, so that a dynamic extent
between two static ones hides a contradiction.
-/

namespace StdBLAS.Extents
open Arg

/-- Static extents of the examples: `A` is `3 × n`, `x` and `y` have length 3, the rest is
dynamic. -/
def someStatics : Statics
  | A, 0 => some 3
  | x, 0 => some 3
  | y, 0 => some 3
  | _, _ => none

/-- Run-time extents of the examples: all 3. -/
theorem someStatics_allows : someStatics.Allows fun _ _ => 3 := by
  intro a r k h
  unfold someStatics at h
  split at h <;> simp_all

/-- Solves the goals "these static extents match, because the run-time extents are equal". -/
macro "by_sizes" : tactic =>
  `(tactic| repeat' (first
    | exact wf_nil | assumption | apply And.intro | exact Statics.Allows.eq (by assumption) (by omega)))

/-! ## Native implementation -/

/-- **C63** `dot`, `dotc` -/
theorem C63_dot (st : Statics) : WellFormed (Native.dot st) ↔ Possible st sameVec := by
  unfold Native.dot
  rw [wf_mustMatch]
  constructor
  · rintro ⟨h, -⟩
    obtain ⟨v, e1, e2⟩ := pair_value h
    exact ⟨_, allows_fill st fun _ _ => v, by simp only [sameVec, fill, e1, e2]⟩
  · rintro ⟨n, hn, e⟩
    simp only [sameVec] at e
    by_sizes

example : WellFormed (Native.dot someStatics) :=
  (C63_dot _).2 ⟨_, someStatics_allows, rfl⟩

/-- Vectors of static lengths 3 and 4 cannot be multiplied. -/
example : ¬ WellFormed (Native.dot fun a _ => if a = x then some 3 else some 4) := by
  rw [C63_dot]
  rintro ⟨n, hn, e⟩
  have h1 := hn x 0 3 rfl
  have h2 := hn y 0 4 rfl
  simp only [sameVec] at e
  omega

/-- **C63** `copy` of vectors -/
theorem C63_copy_vector (st : Statics) : WellFormed (Native.copy1 st) ↔ Possible st sameVec :=
  C63_dot st

example : WellFormed (Native.copy1 someStatics) :=
  (C63_copy_vector _).2 ⟨_, someStatics_allows, rfl⟩

/-- **C63** `swap_elements` of vectors -/
theorem C63_swap_vector (st : Statics) : WellFormed (Native.swap1 st) ↔ Possible st sameVec :=
  C63_dot st

example : WellFormed (Native.swap1 someStatics) :=
  (C63_swap_vector _).2 ⟨_, someStatics_allows, rfl⟩

/-- **C63** `apply_givens_rotation` -/
theorem C63_apply_givens (st : Statics) :
    WellFormed (Native.applyGivens st) ↔ Possible st sameVec :=
  C63_dot st

example : WellFormed (Native.applyGivens someStatics) :=
  (C63_apply_givens _).2 ⟨_, someStatics_allows, rfl⟩

/-- **C63** `copy` of matrices -/
theorem C63_copy_matrix (st : Statics) : WellFormed (Native.copy2 st) ↔ Possible st sameMat := by
  unfold Native.copy2
  rw [wf_mustMatch, wf_mustMatch]
  constructor
  · rintro ⟨h, h', -⟩
    obtain ⟨v, e1, e2⟩ := pair_value h
    obtain ⟨w, e3, e4⟩ := pair_value h'
    exact ⟨_, allows_fill st fun _ r => if r = 0 then v else w,
      by simp only [sameMat, fill, if_true, e1, e2]; simp [e3, e4]⟩
  · rintro ⟨n, hn, e⟩
    simp only [sameMat] at e
    by_sizes

example : WellFormed (Native.copy2 someStatics) :=
  (C63_copy_matrix _).2 ⟨_, someStatics_allows, rfl, rfl⟩

/-- **C63** `swap_elements` of matrices -/
theorem C63_swap_matrix (st : Statics) : WellFormed (Native.swap2 st) ↔ Possible st sameMat :=
  C63_copy_matrix st

example : WellFormed (Native.swap2 someStatics) :=
  (C63_swap_matrix _).2 ⟨_, someStatics_allows, rfl, rfl⟩

/-- **C63** `add` of vectors -/
theorem C63_add_vector (st : Statics) : WellFormed (Native.add1 st) ↔ Possible st sameVec3 := by
  unfold Native.add1
  rw [wf_mustMatch, wf_mustMatch, wf_mustMatch]
  constructor
  · rintro ⟨hxz, hyz, hxy, -⟩
    obtain ⟨v, e1, e2, e3⟩ := triple_value hxy hxz hyz
    exact ⟨_, allows_fill st fun _ _ => v, by simp only [sameVec3, fill, e1, e2, e3, and_self]⟩
  · rintro ⟨n, hn, e⟩
    simp only [sameVec3] at e
    by_sizes

example : WellFormed (Native.add1 someStatics) :=
  (C63_add_vector _).2 ⟨_, someStatics_allows, rfl, rfl⟩

/-- **C63** `add` of matrices -/
theorem C63_add_matrix (st : Statics) : WellFormed (Native.add2 st) ↔ Possible st sameMat3 := by
  unfold Native.add2
  rw [wf_mustMatch, wf_mustMatch, wf_mustMatch, wf_mustMatch, wf_mustMatch, wf_mustMatch]
  constructor
  · rintro ⟨hxz, hyz, hxy, kxz, kyz, kxy, -⟩
    obtain ⟨v, e1, e2, e3⟩ := triple_value hxy hxz hyz
    obtain ⟨w, f1, f2, f3⟩ := triple_value kxy kxz kyz
    refine ⟨_, allows_fill st fun _ r => if r = 0 then v else w, ?_⟩
    simp only [sameMat3, sameVec3, fill, if_true, e1, e2, e3, one_ne_zero, if_false, f1, f2, f3,
      and_self]
  · rintro ⟨n, hn, e⟩
    simp only [sameMat3, sameVec3] at e
    by_sizes

example : WellFormed (Native.add2 someStatics) :=
  (C63_add_matrix _).2 ⟨_, someStatics_allows, ⟨rfl, rfl⟩, rfl, rfl⟩

/-- All extents static: those of `x`, `y` and `b` are 4, all the others are 3. -/
def contradictory : Statics := fun a _ => if a = x ∨ a = y ∨ a = b ∨ a = B then some 4 else some 3

theorem contradictory_ne (n : Sizes) (h : contradictory.Allows n) (r s : Nat) :
    n x r = 4 ∧ n y r = 4 ∧ n B r = 4 ∧ n A s = 3 ∧ n C s = 3 ∧ n z s = 3 ∧ n E s = 3 :=
  ⟨h x r 4 rfl, h y r 4 rfl, h B r 4 rfl, h A s 3 rfl, h C s 3 rfl, h z s 3 rfl, h E s 3 rfl⟩

/-- **C63** (negative) The native `matrix_vector_product`, `matrix_product`,
`triangular_matrix_vector_solve` and `matrix_rank_1_update` compile for static extents that cannot
fit. -/
theorem C63_native_unchecked_false :
    ¬ (∀ st, WellFormed (Native.gemv st) → Possible st matVec) ∧
    ¬ (∀ st, WellFormed (Native.gemm st) → Possible st matMat) ∧
    ¬ (∀ st, WellFormed (Native.trsv st) → Possible st solveVec) ∧
    ¬ (∀ st, WellFormed (Native.ger st) → Possible st outer) := by
  refine ⟨fun h => ?_, fun h => ?_, fun h => ?_, fun h => ?_⟩ <;>
  · obtain ⟨n, hn, e⟩ := h contradictory wf_nil
    have h0 := contradictory_ne n hn 0 0
    have h1 := contradictory_ne n hn 1 1
    simp only [matVec, matMat, solveVec, outer] at e
    omega

/-! ## Kokkos implementation: calls that fit compile

In all these theorems: `A` (or `C`, for the rank-k updates) has a packed layout only with the
triangle of the call, or is not packed. -/

section
variable (p : Option Triangle) (t : Triangle) (hp : ∀ t', p = some t' → t' = t) (st : Statics)

/-- **C63** `dot`, `dotc` of the Kokkos backend -/
theorem C63_kokkos_dot : WellFormed (Kk.dot st) ↔ Possible st sameVec := C63_dot st

/-- **C63** `matrix_rank_1_update` and `matrix_rank_1_update_c` of the Kokkos backend -/
theorem C63_kokkos_ger : WellFormed (Kk.ger st) ↔ Possible st outer := by
  unfold Kk.ger
  rw [wf_mustMatch, wf_mustMatch]
  constructor
  · rintro ⟨h, h', -⟩
    obtain ⟨v, e1, e2⟩ := pair_value h
    obtain ⟨w, e3, e4⟩ := pair_value h'
    exact ⟨_, allows_fill st fun a r => if a = x ∨ (a = A ∧ r = 0) then v else w,
      by simp [outer, fill, e1, e2, e3, e4]⟩
  · rintro ⟨n, hn, e⟩
    simp only [outer] at e
    by_sizes

include hp

/-- **C63** the in-place triangular left product of the Kokkos backend -/
theorem C63_kokkos_trmm_left_in_place :
    WellFormed (Kk.leftProductInPlace p t st) ↔ Possible st leftProductInPlace := by
  unfold Kk.leftProductInPlace Kk.checkLeft Kk.checkProduct
  simp only [List.cons_append, List.nil_append]
  rw [wf_triangle, wf_mustMatch, wf_mustMatch, wf_mustMatch, wf_mustMatch]
  constructor
  · rintro ⟨-, h01, h1, h0, -, -⟩
    obtain ⟨v, e1, e2, e3⟩ := triple_value h01 h0 h1
    exact ⟨_, allows_fill st fun _ _ => v, by simp only [leftProductInPlace, fill, e1, e2, e3, and_self]⟩
  · rintro ⟨n, hn, e⟩
    simp only [leftProductInPlace] at e
    by_sizes

/-- **C63** the in-place triangular right product of the Kokkos backend -/
theorem C63_kokkos_trmm_right_in_place :
    WellFormed (Kk.rightProductInPlace p t st) ↔ Possible st rightProductInPlace := by
  unfold Kk.rightProductInPlace Kk.checkRight Kk.checkProduct
  simp only [List.cons_append, List.nil_append]
  rw [wf_triangle, wf_mustMatch, wf_mustMatch, wf_mustMatch, wf_mustMatch]
  constructor
  · rintro ⟨-, h01, h0, -, h1, -⟩
    obtain ⟨v, e1, e2, e3⟩ := triple_value h01 (fun m n a c => (h0 n m c a).symm) h1
    exact ⟨_, allows_fill st fun _ _ => v, by simp only [rightProductInPlace, fill, e1, e2, e3, and_self]⟩
  · rintro ⟨n, hn, e⟩
    simp only [rightProductInPlace] at e
    by_sizes

/-- **C63** `symmetric_matrix_rank_1_update` and `hermitian_matrix_rank_1_update` of the Kokkos
backend: calls that fit compile; if the number of rows of `A` is static, only those compile. -/
theorem C63_kokkos_syr_partial :
    (Possible st outerSame → WellFormed (Kk.syr p t st)) ∧
    (st A 0 ≠ none → (WellFormed (Kk.syr p t st) → Possible st outerSame)) := by
  unfold Kk.syr
  rw [wf_triangle, wf_mustMatch, wf_mustMatch]
  constructor
  · rintro ⟨n, hn, e⟩
    simp only [outerSame] at e
    by_sizes
  · intro hs
    obtain ⟨v, hv⟩ := Option.ne_none_iff_exists'.1 hs
    rintro ⟨-, h1, h2, -⟩
    refine ⟨_, allows_fill st fun _ _ => v, ?_⟩
    simp only [outerSame, fill, hv, Option.getD_some]
    exact ⟨(getD_eq fun k hk => (h1 v k hv hk).symm).symm, (getD_eq fun k hk => (h2 v k hv hk).symm).symm⟩

/-- **C63** the rank-2 updates of the Kokkos backend -/
theorem C63_kokkos_syr2_partial :
    (Possible st outerBoth → WellFormed (Kk.syr2 p t st)) ∧
    (st A 0 ≠ none → (WellFormed (Kk.syr2 p t st) → Possible st outerBoth)) := by
  unfold Kk.syr2
  rw [wf_triangle, wf_mustMatch, wf_mustMatch, wf_mustMatch]
  constructor
  · rintro ⟨n, hn, e⟩
    simp only [outerBoth, outerSame] at e
    by_sizes
  · intro hs
    obtain ⟨v, hv⟩ := Option.ne_none_iff_exists'.1 hs
    rintro ⟨-, h1, h2, h3, -⟩
    refine ⟨_, allows_fill st fun _ _ => v, ?_⟩
    simp only [outerBoth, outerSame, fill, hv, Option.getD_some]
    exact ⟨⟨(getD_eq fun k hk => (h1 v k hv hk).symm).symm,
      (getD_eq fun k hk => (h2 v k hv hk).symm).symm⟩, (getD_eq fun k hk => (h3 v k hv hk).symm).symm⟩

/-- **C63** `triangular_matrix_vector_solve` of the Kokkos backend: calls that fit compile; if both
extents of `A` are static, only those compile. -/
theorem C63_kokkos_trsv_partial :
    (Possible st solveVec → WellFormed (Kk.trsv p t st)) ∧
    (st A 0 ≠ none → st A 1 ≠ none → (WellFormed (Kk.trsv p t st) → Possible st solveVec)) := by
  unfold Kk.trsv
  rw [wf_triangle, wf_mustMatch, wf_mustMatch, wf_mustMatch]
  constructor
  · rintro ⟨n, hn, e⟩
    simp only [solveVec] at e
    by_sizes
  · intro hs hs1
    obtain ⟨v, hv⟩ := Option.ne_none_iff_exists'.1 hs
    obtain ⟨w, hw⟩ := Option.ne_none_iff_exists'.1 hs1
    rintro ⟨-, h1, h2, h3, -⟩
    obtain rfl := h1 v w hv hw
    refine ⟨_, allows_fill st fun _ _ => v, ?_⟩
    simp only [solveVec, fill, hv, hw, Option.getD_some]
    exact ⟨trivial, getD_eq fun k hk => (h2 v k hv hk).symm, getD_eq fun k hk => (h3 v k hw hk).symm⟩

/-- **C63** the symmetric, Hermitian and triangular left products of the Kokkos backend -/
theorem C63_kokkos_left_product_partial :
    (Possible st leftProduct → WellFormed (Kk.leftProduct p t st)) ∧
    (st A 0 ≠ none → st A 1 ≠ none → (WellFormed (Kk.leftProduct p t st) → Possible st leftProduct)) := by
  unfold Kk.leftProduct Kk.checkLeft Kk.checkProduct
  simp only [List.cons_append, List.nil_append]
  rw [wf_triangle, wf_mustMatch, wf_mustMatch, wf_mustMatch, wf_mustMatch]
  constructor
  · rintro ⟨n, hn, e⟩
    simp only [leftProduct, matMat] at e
    by_sizes
  · intro hs hs1
    obtain ⟨v, hv⟩ := Option.ne_none_iff_exists'.1 hs
    obtain ⟨w, hw⟩ := Option.ne_none_iff_exists'.1 hs1
    rintro ⟨-, h1, h2, h3, h4, -⟩
    obtain rfl := h1 v w hv hw
    obtain ⟨u, e1, e2⟩ := pair_value h4
    refine ⟨_, allows_fill st fun _ r => if r = 0 then v else u, ?_⟩
    simp only [leftProduct, matMat, fill, hv, hw, Option.getD_some, if_true, one_ne_zero, if_false,
      e1, e2]
    exact ⟨⟨getD_eq fun k hk => (h3 v k hv hk).symm,
      (getD_eq fun k hk => (h2 v k hw hk).symm).symm, trivial⟩, trivial⟩

/-- **C63** the symmetric, Hermitian and triangular right products of the Kokkos backend -/
theorem C63_kokkos_right_product_partial :
    (Possible st rightProduct → WellFormed (Kk.rightProduct p t st)) ∧
    (st A 0 ≠ none → st A 1 ≠ none →
      (WellFormed (Kk.rightProduct p t st) → Possible st rightProduct)) := by
  unfold Kk.rightProduct Kk.checkRight Kk.checkProduct
  simp only [List.cons_append, List.nil_append]
  rw [wf_triangle, wf_mustMatch, wf_mustMatch, wf_mustMatch, wf_mustMatch]
  constructor
  · rintro ⟨n, hn, e⟩
    simp only [rightProduct] at e
    by_sizes
  · intro hs hs1
    obtain ⟨v, hv⟩ := Option.ne_none_iff_exists'.1 hs
    obtain ⟨w, hw⟩ := Option.ne_none_iff_exists'.1 hs1
    rintro ⟨-, h1, h2, h3, h4, -⟩
    obtain rfl := h1 v w hv hw
    obtain ⟨u, e1, e2⟩ := pair_value h3
    refine ⟨_, allows_fill st fun _ r => if r = 0 then u else v, ?_⟩
    simp only [rightProduct, fill, hv, hw, Option.getD_some, if_true, one_ne_zero, if_false,
      e1, e2]
    exact ⟨trivial, getD_eq fun k hk => h2 k v hk hv, getD_eq fun k hk => (h4 v k hw hk).symm, trivial⟩

/-- **C63** the updating symmetric and Hermitian left products of the Kokkos backend: calls that fit
compile; if all extents of `A` and `C` are static, only those compile. -/
theorem C63_kokkos_left_product_update_partial :
    (Possible st (fun n => leftProduct n ∧ withE n) → WellFormed (Kk.leftProductUpdate p t st)) ∧
    (st A 0 ≠ none → st A 1 ≠ none → st C 0 ≠ none → st C 1 ≠ none →
      (WellFormed (Kk.leftProductUpdate p t st) →
        Possible st (fun n => leftProduct n ∧ withE n))) := by
  unfold Kk.leftProductUpdate Kk.checkLeft Kk.checkProduct Kk.checkE
  simp only [List.cons_append, List.nil_append]
  rw [wf_triangle, wf_mustMatch, wf_mustMatch, wf_mustMatch, wf_mustMatch, wf_mustMatch,
    wf_mustMatch]
  constructor
  · rintro ⟨n, hn, e⟩
    simp only [leftProduct, matMat, withE] at e
    by_sizes
  · intro hs hs1 hc hc1
    obtain ⟨v, hv⟩ := Option.ne_none_iff_exists'.1 hs
    obtain ⟨w, hw⟩ := Option.ne_none_iff_exists'.1 hs1
    obtain ⟨c, hc⟩ := Option.ne_none_iff_exists'.1 hc
    obtain ⟨d, hd⟩ := Option.ne_none_iff_exists'.1 hc1
    rintro ⟨-, h1, h2, h3, h4, h5, h6, -⟩
    obtain rfl := h1 v w hv hw
    obtain rfl := h3 v c hv hc
    refine ⟨_, allows_fill st fun _ r => if r = 0 then v else d, ?_⟩
    simp only [leftProduct, matMat, withE, fill, hv, hw, hc, hd, Option.getD_some, if_true,
      one_ne_zero, if_false]
    exact ⟨⟨⟨trivial, (getD_eq fun k hk => (h2 v k hw hk).symm).symm,
      (getD_eq fun k hk => h4 k d hk hd).symm⟩, trivial⟩,
      getD_eq fun k hk => h5 k v hk hc, getD_eq fun k hk => h6 k d hk hd⟩

/-- **C63** the updating symmetric right product of the Kokkos backend -/
theorem C63_kokkos_right_product_update_partial :
    (Possible st (fun n => rightProduct n ∧ withE n) → WellFormed (Kk.rightProductUpdate p t st)) ∧
    (st A 0 ≠ none → st A 1 ≠ none → st C 0 ≠ none → st C 1 ≠ none →
      (WellFormed (Kk.rightProductUpdate p t st) →
        Possible st (fun n => rightProduct n ∧ withE n))) := by
  unfold Kk.rightProductUpdate Kk.checkRight Kk.checkProduct Kk.checkE
  simp only [List.cons_append, List.nil_append]
  rw [wf_triangle, wf_mustMatch, wf_mustMatch, wf_mustMatch, wf_mustMatch, wf_mustMatch,
    wf_mustMatch]
  constructor
  · rintro ⟨n, hn, e⟩
    simp only [rightProduct, withE] at e
    by_sizes
  · intro hs hs1 hc hc1
    obtain ⟨v, hv⟩ := Option.ne_none_iff_exists'.1 hs
    obtain ⟨w, hw⟩ := Option.ne_none_iff_exists'.1 hs1
    obtain ⟨c, hc⟩ := Option.ne_none_iff_exists'.1 hc
    obtain ⟨d, hd⟩ := Option.ne_none_iff_exists'.1 hc1
    rintro ⟨-, h1, h2, h3, h4, h5, h6, -⟩
    obtain rfl := h1 v w hv hw
    obtain rfl := h4 v d hw hd
    refine ⟨_, allows_fill st fun _ r => if r = 0 then c else v, ?_⟩
    simp only [rightProduct, withE, fill, hv, hw, hc, hd, Option.getD_some, if_true,
      one_ne_zero, if_false]
    exact ⟨⟨(getD_eq fun k hk => h3 k c hk hc).symm, getD_eq fun k hk => h2 k v hk hv, trivial,
      trivial⟩, getD_eq fun k hk => h5 k c hk hc, getD_eq fun k hk => h6 k v hk hd⟩

/-- **C63** the rank-k updates of the Kokkos backend: calls that fit compile; if the number of rows
of `C` is static, only those compile. -/
theorem C63_kokkos_rank_k_partial :
    (Possible st rankK → WellFormed (Kk.rankK p t st)) ∧
    (st C 0 ≠ none → (WellFormed (Kk.rankK p t st) → Possible st rankK)) := by
  unfold Kk.rankK
  rw [wf_triangle, wf_mustMatch, wf_mustMatch]
  constructor
  · rintro ⟨n, hn, e⟩
    simp only [rankK] at e
    by_sizes
  · intro hs
    obtain ⟨v, hv⟩ := Option.ne_none_iff_exists'.1 hs
    rintro ⟨-, h1, h2, -⟩
    refine ⟨_, allows_fill st fun _ _ => v, ?_⟩
    simp only [rankK, fill, hv, Option.getD_some]
    exact ⟨(getD_eq fun k hk => (h2 v k hv hk).symm).symm, (getD_eq fun k hk => h1 k v hk hv).symm⟩

/-- **C63** the rank-2k updates of the Kokkos backend -/
theorem C63_kokkos_rank_2k_partial :
    (Possible st rank2K → WellFormed (Kk.rank2K p t st)) ∧
    (st C 0 ≠ none → (WellFormed (Kk.rank2K p t st) → Possible st rank2K)) := by
  unfold Kk.rank2K
  rw [wf_triangle, wf_mustMatch, wf_mustMatch, wf_mustMatch, wf_mustMatch]
  constructor
  · rintro ⟨n, hn, e⟩
    simp only [rank2K, rankK] at e
    by_sizes
  · intro hs
    obtain ⟨v, hv⟩ := Option.ne_none_iff_exists'.1 hs
    rintro ⟨-, h1, h2, h3, h4, -⟩
    obtain ⟨u, e1, e2⟩ := pair_value h4
    have f1 : (st A 0).getD v = v := getD_eq fun k hk => h1 k v hk hv
    have f2 : (st B 0).getD v = v := getD_eq fun k hk => h2 k v hk hv
    have f3 : (st C 1).getD v = v := getD_eq fun k hk => (h3 v k hv hk).symm
    refine ⟨_, allows_fill st fun a r => if a = C ∨ r = 0 then v else u, ?_⟩
    simp [rank2K, rankK, fill, hv, e1, e2, f1, f2, f3]

/-- **C63** `triangular_matrix_matrix_left_solve` of the Kokkos backend: calls that fit compile; if
the extents `A.extent(1)` and `B.extent(0)` are static, only those compile. -/
theorem C63_kokkos_trsm_left_partial :
    (Possible st solveLeft → WellFormed (Kk.solveLeft p t st)) ∧
    (st A 1 ≠ none → st B 0 ≠ none → (WellFormed (Kk.solveLeft p t st) → Possible st solveLeft)) := by
  unfold Kk.solveLeft
  rw [wf_triangle, wf_mustMatch, wf_mustMatch, wf_mustMatch, wf_mustMatch]
  constructor
  · rintro ⟨n, hn, e⟩
    simp only [solveLeft] at e
    by_sizes
  · intro hs hs1
    obtain ⟨v, hv⟩ := Option.ne_none_iff_exists'.1 hs
    obtain ⟨w, hw⟩ := Option.ne_none_iff_exists'.1 hs1
    rintro ⟨-, h1, h2, h3, h4, -⟩
    obtain rfl := h2 v w hv hw
    obtain ⟨u, e1, e2⟩ := pair_value h4
    have f1 : (st A 0).getD v = v := getD_eq fun k hk => h1 k v hk hv
    have f2 : (st X 0).getD v = v := getD_eq fun k hk => h3 k v hk hw
    refine ⟨_, allows_fill st fun a r => if a = A ∨ r = 0 then v else u, ?_⟩
    simp [solveLeft, fill, hv, hw, e1, e2, f1, f2]

/-- **C63** `triangular_matrix_matrix_right_solve` of the Kokkos backend -/
theorem C63_kokkos_trsm_right_partial :
    (Possible st solveRight → WellFormed (Kk.solveRight p t st)) ∧
    (st A 1 ≠ none → st B 1 ≠ none →
      (WellFormed (Kk.solveRight p t st) → Possible st solveRight)) := by
  unfold Kk.solveRight
  rw [wf_triangle, wf_mustMatch, wf_mustMatch, wf_mustMatch, wf_mustMatch]
  constructor
  · rintro ⟨n, hn, e⟩
    simp only [solveRight] at e
    by_sizes
  · intro hs hs1
    obtain ⟨v, hv⟩ := Option.ne_none_iff_exists'.1 hs
    obtain ⟨w, hw⟩ := Option.ne_none_iff_exists'.1 hs1
    rintro ⟨-, h1, h2, h3, h4, -⟩
    obtain rfl := h2 v w hv hw
    obtain ⟨u, e1, e2⟩ := pair_value h3
    have f1 : (st A 0).getD v = v := getD_eq fun k hk => h1 k v hk hv
    have f2 : (st X 1).getD v = v := getD_eq fun k hk => h4 k v hk hw
    refine ⟨_, allows_fill st fun a r => if a = A ∨ r = 1 then v else u, ?_⟩
    simp [solveRight, fill, hv, hw, e1, e2, f1, f2]

end

/-- The hypotheses are met by a matrix of 3 rows and a dynamic number of columns. -/
example : WellFormed (Kk.syr none .upper someStatics) :=
  (C63_kokkos_syr_partial none .upper (by simp) _).1 ⟨_, someStatics_allows, rfl, rfl⟩

example : ¬ WellFormed (Kk.syr (some .upper) .upper contradictory) := fun h => by
  obtain ⟨n, hn, e⟩ :=
    (C63_kokkos_syr_partial (some .upper) .upper (by simp) contradictory).2 (by simp [contradictory]) h
  have h0 := contradictory_ne n hn 0 0
  simp only [outerSame] at e
  omega

example : WellFormed (Kk.trsv (some .lower) .lower someStatics) :=
  (C63_kokkos_trsv_partial (some .lower) .lower (by simp) _).1 ⟨_, someStatics_allows, rfl, rfl, rfl⟩

example : ¬ WellFormed (Kk.trsv none .lower contradictory) := fun h => by
  obtain ⟨n, hn, e⟩ := (C63_kokkos_trsv_partial none .lower (by simp) contradictory).2
    (by simp [contradictory]) (by simp [contradictory]) h
  have h0 := contradictory_ne n hn 0 0
  have h1 := contradictory_ne n hn 0 1
  simp only [solveVec] at e
  omega

example : WellFormed (Kk.leftProductUpdate none .upper someStatics) :=
  (C63_kokkos_left_product_update_partial none .upper (by simp) _).1
    ⟨_, someStatics_allows, ⟨⟨rfl, rfl, rfl⟩, rfl⟩, rfl, rfl⟩

example : WellFormed (Kk.solveLeft none .upper someStatics) :=
  (C63_kokkos_trsm_left_partial none .upper (by simp) _).1
    ⟨_, someStatics_allows, rfl, rfl, rfl, rfl⟩

/-- A packed matrix with the other triangle is refused. -/
theorem C63_kokkos_packed_triangle (t t' : Triangle) (h : t' ≠ t) (st : Statics) :
    ¬ WellFormed (Kk.syr (some t') t st) ∧ ¬ WellFormed (Kk.syr2 (some t') t st) ∧
    ¬ WellFormed (Kk.trsv (some t') t st) ∧ ¬ WellFormed (Kk.leftProduct (some t') t st) ∧
    ¬ WellFormed (Kk.rightProduct (some t') t st) ∧ ¬ WellFormed (Kk.rankK (some t') t st) ∧
    ¬ WellFormed (Kk.rank2K (some t') t st) ∧ ¬ WellFormed (Kk.solveLeft (some t') t st) ∧
    ¬ WellFormed (Kk.solveRight (some t') t st) := by
  refine ⟨?_, ?_, ?_, ?_, ?_, ?_, ?_, ?_, ?_⟩ <;>
  · intro w
    exact h ((wf_triangle.1 w).1 t' rfl)

example := C63_kokkos_packed_triangle .upper .lower (by decide) someStatics

/-! ## Kokkos implementation: calls that compile although they cannot fit -/

/-- **C63** (negative) The Kokkos `add`, `swap_elements`, `matrix_vector_product`,
`symmetric_matrix_vector_product`, `triangular_matrix_vector_product` and `matrix_product` compile
for static extents that cannot fit: the result of `static_extent_match` is discarded. -/
theorem C63_kokkos_discarded_false :
    ¬ (∀ st, WellFormed (Kk.add 1 st) → Possible st sameVec3) ∧
    ¬ (∀ st, WellFormed (Kk.add 2 st) → Possible st sameMat3) ∧
    ¬ (∀ st, WellFormed (Kk.swap 1 st) → Possible st sameVec) ∧
    ¬ (∀ st, WellFormed (Kk.swap 2 st) → Possible st sameMat) ∧
    ¬ (∀ st, WellFormed (Kk.gemv st) → Possible st matVec) ∧
    ¬ (∀ st, WellFormed (Kk.gemvUpdate st) → Possible st matVecUpdate) ∧
    ¬ (∀ st, WellFormed (Kk.symv st) → Possible st squareVec) ∧
    ¬ (∀ st, WellFormed (Kk.trmv st) → Possible st squareVec) ∧
    ¬ (∀ st, WellFormed (Kk.gemm st) → Possible st matMat) := by
  have key : ∀ (body : Statics → List Check) (fits : Sizes → Prop) (st : Statics),
      (∀ c ∈ body st, ∃ v, c = .discarded v) → (∀ n, st.Allows n → ¬ fits n) →
      ¬ (∀ st, WellFormed (body st) → Possible st fits) := fun body fits st h1 h2 h => by
    obtain ⟨n, hn, e⟩ := h st (wf_discarded h1)
    exact h2 n hn e
  have sw : ∀ n : Sizes, (Statics.Allows (fun a _ => if a = x then some 3 else some 4) n) →
      ∀ r, n x r ≠ n y r := fun n hn r => by
    rw [hn x r 3 rfl, hn y r 4 rfl]; decide
  refine ⟨key _ _ contradictory ?_ fun n hn e => ?_, key _ _ contradictory ?_ fun n hn e => ?_,
    key _ _ (fun a _ => if a = x then some 3 else some 4) ?_ fun n hn e => sw n hn 0 e,
    key _ _ (fun a _ => if a = x then some 3 else some 4) ?_ fun n hn e => sw n hn 0 e.1,
    key _ _ contradictory ?_ fun n hn e => ?_, key _ _ contradictory ?_ fun n hn e => ?_,
    key _ _ contradictory ?_ fun n hn e => ?_, key _ _ contradictory ?_ fun n hn e => ?_,
    key _ _ contradictory ?_ fun n hn e => ?_⟩
  case refine_1 | refine_3 | refine_5 | refine_6 | refine_7 | refine_9 | refine_11 | refine_13 |
      refine_15 =>
    simp [Kk.add, Kk.swap, Kk.gemv, Kk.gemvUpdate, Kk.symv, Kk.trmv, Kk.gemm, List.range',
      Statics.computeMatch]
  all_goals
    have h0 := contradictory_ne n hn 0 0
    have h1 := contradictory_ne n hn 1 1
    simp only [sameVec3, sameMat3, matVec, matVecUpdate, squareVec, matMat] at e
    omega

/-! ## Kokkos implementation: the conditions that are computed and discarded

They are the right ones for `add`, `swap_elements`, `matrix_vector_product` and `matrix_product`: written as
`static_assert` they would refuse exactly the calls that cannot fit.  Those of
`symmetric_matrix_vector_product` are not. -/

/-- The same checks, all of them in a `static_assert`. -/
def asserted (body : List Check) : List Check :=
  body.map fun
    | .discarded v => .staticAssert v
    | c => c

/-- **C63** With `static_assert`, `add`, `swap_elements`, `matrix_vector_product` (overwriting) and
`matrix_product` of the Kokkos backend would compile exactly if the sizes can fit. -/
theorem C63_kokkos_discarded_conditions (st : Statics) :
    (WellFormed (asserted (Kk.add 1 st)) ↔ Possible st sameVec3) ∧
    (WellFormed (asserted (Kk.add 2 st)) ↔ Possible st sameMat3) ∧
    (WellFormed (asserted (Kk.swap 1 st)) ↔ Possible st sameVec) ∧
    (WellFormed (asserted (Kk.swap 2 st)) ↔ Possible st sameMat) ∧
    (WellFormed (asserted (Kk.gemv st)) ↔ Possible st matVec) ∧
    (WellFormed (asserted (Kk.gemm st)) ↔ Possible st matMat) := by
  refine ⟨C63_add_vector st, C63_add_matrix st, C63_swap_vector st, C63_swap_matrix st, ?_, ?_⟩
  · change WellFormed [st.mustMatch A 1 x 0, st.mustMatch A 0 y 0] ↔ _
    rw [wf_mustMatch, wf_mustMatch]
    constructor
    · rintro ⟨h, h', -⟩
      obtain ⟨v, e1, e2⟩ := pair_value h
      obtain ⟨w, e3, e4⟩ := pair_value h'
      exact ⟨_, allows_fill st fun a r => if a = x ∨ (a = A ∧ r = 1) then v else w,
        by simp [matVec, fill, e1, e2, e3, e4]⟩
    · rintro ⟨n, hn, e⟩
      simp only [matVec] at e
      by_sizes
  · change WellFormed [st.mustMatch A 1 B 0, st.mustMatch A 0 C 0, st.mustMatch B 1 C 1] ↔ _
    rw [wf_mustMatch, wf_mustMatch, wf_mustMatch]
    constructor
    · rintro ⟨h, h', h'', -⟩
      obtain ⟨v, e1, e2⟩ := pair_value h
      obtain ⟨w, e3, e4⟩ := pair_value h'
      obtain ⟨u, e5, e6⟩ := pair_value h''
      exact ⟨_, allows_fill st fun a r => if (a = A ∧ r = 1) ∨ (a = B ∧ r = 0) then v
        else if r = 0 then w else u, by simp [matMat, fill, e1, e2, e3, e4, e5, e6]⟩
    · rintro ⟨n, hn, e⟩
      simp only [matMat] at e
      by_sizes

/-- All extents are dynamic or 3: nothing would be refused. -/
example : WellFormed (asserted (Kk.gemm someStatics)) :=
  (C63_kokkos_discarded_conditions _).2.2.2.2.2.2 ⟨_, someStatics_allows, rfl, rfl, rfl⟩

/-- `contradictory` would be refused by all of them but `swap_elements`, where `x` and `y` have the same
extents. -/
example : ¬ WellFormed (asserted (Kk.add 2 contradictory)) := by
  rw [(C63_kokkos_discarded_conditions _).2.1]
  rintro ⟨n, hn, e⟩
  have h0 := contradictory_ne n hn 0 0
  simp only [sameMat3, sameVec3] at e
  omega

/-- **C63** The same for the triangular and updating matrix-vector products, if the extents in the middle
are static. -/
theorem C63_kokkos_discarded_conditions_partial (st : Statics) :
    (Possible st matVecUpdate → WellFormed (asserted (Kk.gemvUpdate st))) ∧
    (st y 0 ≠ none → (WellFormed (asserted (Kk.gemvUpdate st)) → Possible st matVecUpdate)) ∧
    (Possible st squareVec → WellFormed (asserted (Kk.trmv st))) ∧
    (st A 0 ≠ none → st A 1 ≠ none → (WellFormed (asserted (Kk.trmv st)) → Possible st squareVec)) ∧
    (Possible st squareVec → WellFormed (asserted (Kk.symv st))) := by
  change (_ → WellFormed [st.mustMatch A 1 x 0, st.mustMatch A 0 y 0, st.mustMatch y 0 z 0]) ∧
    (_ → (WellFormed [st.mustMatch A 1 x 0, st.mustMatch A 0 y 0, st.mustMatch y 0 z 0] → _)) ∧
    (_ → WellFormed [st.mustMatch A 1 A 0, st.mustMatch A 0 y 0, st.mustMatch A 1 x 0]) ∧
    (_ → _ → (WellFormed [st.mustMatch A 1 A 0, st.mustMatch A 0 y 0, st.mustMatch A 1 x 0] → _)) ∧
    (_ → WellFormed [st.mustMatch A 0 A 1, st.mustMatch A 1 x 0, st.mustMatch A 0 x 0])
  simp only [wf_mustMatch]
  refine ⟨?_, ?_, ?_, ?_, ?_⟩
  · rintro ⟨n, hn, e⟩
    simp only [matVecUpdate, matVec] at e
    by_sizes
  · intro hs
    obtain ⟨v, hv⟩ := Option.ne_none_iff_exists'.1 hs
    rintro ⟨h1, h2, h3, -⟩
    obtain ⟨u, e1, e2⟩ := pair_value h1
    have f1 : (st A 0).getD v = v := getD_eq fun k hk => h2 k v hk hv
    have f2 : (st z 0).getD v = v := getD_eq fun k hk => (h3 v k hv hk).symm
    exact ⟨_, allows_fill st fun a r => if a = x ∨ (a = A ∧ r = 1) then u else v,
      by simp [matVecUpdate, matVec, fill, hv, e1, e2, f1, f2]⟩
  · rintro ⟨n, hn, e⟩
    simp only [squareVec, matVec] at e
    by_sizes
  · intro hs hs1
    obtain ⟨v, hv⟩ := Option.ne_none_iff_exists'.1 hs
    obtain ⟨w, hw⟩ := Option.ne_none_iff_exists'.1 hs1
    rintro ⟨h1, h2, h3, -⟩
    obtain rfl := h1 w v hw hv
    have f1 : (st y 0).getD w = w := getD_eq fun k hk => (h2 w k hv hk).symm
    have f2 : (st x 0).getD w = w := getD_eq fun k hk => (h3 w k hw hk).symm
    exact ⟨_, allows_fill st fun _ _ => w, by simp [squareVec, matVec, fill, hv, hw, f1, f2]⟩
  · rintro ⟨n, hn, e⟩
    simp only [squareVec, matVec] at e
    by_sizes

example : Possible someStatics matVecUpdate := ⟨_, someStatics_allows, ⟨rfl, rfl⟩, rfl⟩
example : Possible someStatics squareVec := ⟨_, someStatics_allows, ⟨rfl, rfl⟩, rfl⟩

/-- **C63** (negative) The conditions of `symmetric_matrix_vector_product` compare `A` with `x` twice and
never with `y`: they would accept a result of a wrong static size, also if all extents are static. -/
theorem C63_kokkos_symv_conditions_false :
    ¬ ∀ st : Statics, (∀ a r, st a r ≠ none) → WellFormed (asserted (Kk.symv st)) → Possible st squareVec :=
  fun h => by
  obtain ⟨n, hn, e⟩ := h (fun a _ => if a = y then some 4 else some 3) (fun a r => by split <;> simp) (by
    simp [asserted, Kk.symv, Statics.computeMatch, staticExtentMatch, wf_assert, wf_nil])
  have h0 := hn y 0 4 rfl
  have h1 := hn A 0 3 rfl
  simp only [squareVec, matVec] at e
  omega

/-- One dynamic extent `h`, and static extents 3 and 4 on both sides of it. -/
def hidden (h : Arg × Nat) (three four : Arg × Nat) : Statics := fun a r =>
  if (a, r) = h then none else if (a, r) = three then some 3 else if (a, r) = four then some 4
  else none

/-- **C63** (negative) The checks of the Kokkos backend compare neighbours only.  If the extent in
the middle is dynamic, static extents 3 and 4 that have to be equal are not noticed: for
`A.extent(1)` and the length of `x` in the rank-1 updates and the triangular solve, for
`A.extent(1)` and the rows of `C` in the left product, for the rows of `A` and `C.extent(1)` in the
rank-k and rank-2k updates, for `A.extent(1)` and the rows of `X` in the left solve, and for
`A.extent(1)` and the columns of `X` in the right solve. -/
theorem C63_kokkos_dynamic_between_false (p : Option Triangle) (t : Triangle)
    (hp : ∀ t', p = some t' → t' = t) :
    ¬ (∀ st, WellFormed (Kk.syr p t st) → Possible st outerSame) ∧
    ¬ (∀ st, WellFormed (Kk.syr2 p t st) → Possible st outerBoth) ∧
    ¬ (∀ st, WellFormed (Kk.trsv p t st) → Possible st solveVec) ∧
    ¬ (∀ st, WellFormed (Kk.leftProduct p t st) → Possible st leftProduct) ∧
    ¬ (∀ st, WellFormed (Kk.rightProduct p t st) → Possible st rightProduct) ∧
    ¬ (∀ st, WellFormed (Kk.rankK p t st) → Possible st rankK) ∧
    ¬ (∀ st, WellFormed (Kk.rank2K p t st) → Possible st rank2K) ∧
    ¬ (∀ st, WellFormed (Kk.solveLeft p t st) → Possible st solveLeft) ∧
    ¬ (∀ st, WellFormed (Kk.solveRight p t st) → Possible st solveRight) := by
  refine ⟨fun h => ?_, fun h => ?_, fun h => ?_, fun h => ?_, fun h => ?_, fun h => ?_, fun h => ?_,
    fun h => ?_, fun h => ?_⟩
  · obtain ⟨n, hn, e⟩ := h (hidden (A, 0) (A, 1) (x, 0)) (by
      simp [Kk.syr, wf_triangle, wf_mustMatch, wf_nil, hidden]
      exact hp)
    have h0 := hn A 1 3 rfl
    have h1 := hn x 0 4 rfl
    simp only [outerSame] at e
    omega
  · obtain ⟨n, hn, e⟩ := h (hidden (A, 0) (A, 1) (x, 0)) (by
      simp [Kk.syr2, wf_triangle, wf_mustMatch, wf_nil, hidden]
      exact hp)
    have h0 := hn A 1 3 rfl
    have h1 := hn x 0 4 rfl
    simp only [outerBoth, outerSame] at e
    omega
  · obtain ⟨n, hn, e⟩ := h (hidden (A, 0) (A, 1) (x, 0)) (by
      simp [Kk.trsv, wf_triangle, wf_mustMatch, wf_nil, hidden]
      exact hp)
    have h0 := hn A 1 3 rfl
    have h1 := hn x 0 4 rfl
    simp only [solveVec] at e
    omega
  · obtain ⟨n, hn, e⟩ := h (hidden (A, 0) (A, 1) (C, 0)) (by
      simp [Kk.leftProduct, Kk.checkLeft, Kk.checkProduct, wf_triangle, wf_mustMatch, wf_nil,
        hidden]
      exact hp)
    have h0 := hn A 1 3 rfl
    have h1 := hn C 0 4 rfl
    simp only [leftProduct, matMat] at e
    omega
  · obtain ⟨n, hn, e⟩ := h (hidden (A, 0) (A, 1) (B, 1)) (by
      simp [Kk.rightProduct, Kk.checkRight, Kk.checkProduct, wf_triangle, wf_mustMatch, wf_nil,
        hidden]
      exact hp)
    have h0 := hn A 1 3 rfl
    have h1 := hn B 1 4 rfl
    simp only [rightProduct] at e
    omega
  · obtain ⟨n, hn, e⟩ := h (hidden (C, 0) (A, 0) (C, 1)) (by
      simp [Kk.rankK, wf_triangle, wf_mustMatch, wf_nil, hidden]
      exact hp)
    have h0 := hn A 0 3 rfl
    have h1 := hn C 1 4 rfl
    simp only [rankK] at e
    omega
  · obtain ⟨n, hn, e⟩ := h (hidden (C, 0) (A, 0) (C, 1)) (by
      simp [Kk.rank2K, wf_triangle, wf_mustMatch, wf_nil, hidden]
      exact hp)
    have h0 := hn A 0 3 rfl
    have h1 := hn C 1 4 rfl
    simp only [rank2K, rankK] at e
    omega
  · obtain ⟨n, hn, e⟩ := h (hidden (B, 0) (A, 1) (X, 0)) (by
      simp [Kk.solveLeft, wf_triangle, wf_mustMatch, wf_nil, hidden]
      exact hp)
    have h0 := hn A 1 3 rfl
    have h1 := hn X 0 4 rfl
    simp only [solveLeft] at e
    omega
  · obtain ⟨n, hn, e⟩ := h (hidden (B, 1) (A, 1) (X, 1)) (by
      simp [Kk.solveRight, wf_triangle, wf_mustMatch, wf_nil, hidden]
      exact hp)
    have h0 := hn A 1 3 rfl
    have h1 := hn X 1 4 rfl
    simp only [solveRight] at e
    omega

example := C63_kokkos_dynamic_between_false (some .upper) .upper (by simp)

/-- **C63** (negative) The updating Hermitian right product of the Kokkos backend does not check
`E`, not even if all extents are static. -/
theorem C63_kokkos_hemm_right_update_false (p : Option Triangle) (t : Triangle)
    (hp : ∀ t', p = some t' → t' = t) :
    ¬ ∀ st, WellFormed (Kk.hermitianRightProductUpdate p t st) →
      Possible st (fun n => rightProduct n ∧ withE n) := fun h => by
  obtain ⟨n, hn, e⟩ := h (fun a _ => if a = E then some 4 else some 3) (by
    simp [Kk.hermitianRightProductUpdate, Kk.checkRight, Kk.checkProduct, wf_triangle, wf_mustMatch,
      wf_nil]
    exact hp)
  have h0 := hn E 0 4 rfl
  have h1 := hn C 0 3 rfl
  simp only [withE] at e
  omega

example := C63_kokkos_hemm_right_update_false (some .lower) .lower (by simp)

end StdBLAS.Extents

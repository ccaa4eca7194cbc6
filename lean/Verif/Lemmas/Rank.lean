import Verif.Lemmas.State
import Verif.Lemmas.Blas2

/-! # Updates of one triangle -/

namespace StdBLAS
open Finset
variable {α : Type} {h h0 : Heap α}

theorem triangleLoop_ends {C : Mat} {t : Triangle} {pre : Nat → Prog α Unit}
    {body : Nat → Nat → Prog α Unit} {u : Nat → Nat → α} {p : α → α} {q : Nat → Nat → α → α}
    (hC : C.HoldsOn h t.region u) (hsq : C.rows = C.cols)
    (hpre : ∀ j, j < C.cols → ∀ h1 w, C.BecomesOn h h1 t.region w →
      Ends (pre j) h1 fun _ h' => C.BecomesOn h h' t.region (updateAt w j j (p (w j j))))
    (hbody : ∀ i j, i < C.rows → j < C.cols → t.region i j → ∀ h1 w,
      C.BecomesOn h h1 t.region w →
      Ends (body i j) h1 fun _ h' => C.BecomesOn h h' t.region (updateAt w i j (q i j (w i j)))) :
    Ends (triangleLoop C.rows C.cols t pre body) h fun _ h' =>
      C.BecomesOn h h' t.region fun i j => q i j (if i = j then p (u i j) else u i j) := by
  unfold triangleLoop
  refine (ends_forUp_inv (fun j h' => C.BecomesOn h h' t.region fun r c =>
    if c < j then q r c (if r = c then p (u r c) else u r c) else u r c) (Nat.zero_le _) ?_ ?_).mono ?_
  · intro j _ hj h1 hh
    rw [ends_bind]
    refine (hpre j hj h1 _ hh).mono fun _ h2 hh2 => ?_
    rw [if_neg (Nat.lt_irrefl j)] at hh2
    cases t with
    | lower =>
      refine (ends_forUp_inv (fun i h' => C.BecomesOn h h' Triangle.lower.region fun r c =>
        if c < j ∨ (c = j ∧ r < i) then q r c (if r = c then p (u r c) else u r c)
        else if c = j ∧ r = j then p (u r c) else u r c)
        (by omega) ?_ (hh2.congr fun r c _ _ hr => ?_)).mono ?_
      · intro i hi1 hi2 h3 hh3
        refine (hbody i j hi2 hj hi1 h3 _ hh3).mono fun _ h4 hh4 => ?_
        refine hh4.congr fun r c _ _ hr => ?_
        by_cases e : r = i ∧ c = j
        · obtain ⟨rfl, rfl⟩ := e
          simp only [updateAt, and_self, true_and, if_true]
          split_ifs <;> first | rfl | (exfalso; omega)
        · simp only [updateAt, if_neg e]
          split_ifs <;> first | rfl | (exfalso; omega)
      · simp only [Triangle.region] at hr
        by_cases e : r = j ∧ c = j
        · obtain ⟨rfl, rfl⟩ := e
          simp only [updateAt, and_self, true_and, if_true]
          split_ifs <;> first | rfl | (exfalso; omega)
        · simp only [updateAt, if_neg e]
          split_ifs <;> first | rfl | (exfalso; omega)
      · intro _ h3 hh3
        refine hh3.congr fun r c hr' _ hr => ?_
        split_ifs <;> first | rfl | (exfalso; omega)
    | upper =>
      refine (ends_forUp_inv (fun i h' => C.BecomesOn h h' Triangle.upper.region fun r c =>
        if c < j ∨ (c = j ∧ r < i) then q r c (if r = c then p (u r c) else u r c)
        else if c = j ∧ r = j then p (u r c) else u r c)
        (by omega) ?_ (hh2.congr fun r c _ _ hr => ?_)).mono ?_
      · intro i hi1 hi2 h3 hh3
        refine (hbody i j (by omega) hj (by simp only [Triangle.region]; omega) h3 _ hh3).mono
          fun _ h4 hh4 => ?_
        refine hh4.congr fun r c _ _ hr => ?_
        by_cases e : r = i ∧ c = j
        · obtain ⟨rfl, rfl⟩ := e
          simp only [updateAt, and_self, true_and, if_true]
          split_ifs <;> first | rfl | (exfalso; omega)
        · simp only [updateAt, if_neg e]
          split_ifs <;> first | rfl | (exfalso; omega)
      · by_cases e : r = j ∧ c = j
        · obtain ⟨rfl, rfl⟩ := e
          simp only [updateAt, and_self, true_and, if_true]
          split_ifs <;> first | rfl | (exfalso; omega)
        · simp only [updateAt, if_neg e]
          split_ifs <;> first | rfl | (exfalso; omega)
      · intro _ h3 hh3
        refine hh3.congr fun r c hr' _ hr => ?_
        simp only [Triangle.region] at hr
        split_ifs <;> first | rfl | (exfalso; omega)
  · exact (Mat.BecomesOn.refl hC).congr fun r c _ _ _ => by rw [if_neg (by omega)]
  · intro _ h' hh
    exact hh.congr fun r c _ hc _ => by rw [if_pos hc]

theorem region_diag (t : Triangle) (j : Nat) : t.region j j := by
  cases t <;> simp [Triangle.region]

/-- The symmetric updates do nothing before a column. -/
theorem pre_none {C : Mat} {R : Region} {j : Nat} {h1 : Heap α} {w : Nat → Nat → α}
    (hb : C.BecomesOn h h1 R w) :
    Ends (pure () : Prog α Unit) h1 fun _ h' => C.BecomesOn h h' R (updateAt w j j (id (w j j))) := by
  rw [ends_pure]
  refine hb.congr fun r c _ _ _ => ?_
  unfold updateAt
  split
  · next e => obtain ⟨rfl, rfl⟩ := e; rfl
  · rfl

/-- The Hermitian updates make the diagonal element real before a column. -/
theorem pre_real [ConjOps α] {C : Mat} {t : Triangle} {j : Nat} {h1 : Heap α} {w : Nat → Nat → α}
    (hu : C.UniqueOn t.region) (hr : j < C.rows) (hj : j < C.cols)
    (hb : C.BecomesOn h h1 t.region w) :
    Ends (makeDiagReal C j) h1 fun _ h' =>
      C.BecomesOn h h' t.region (updateAt w j j (ConjOps.re (w j j))) := by
  unfold makeDiagReal
  rw [ends_bind, hb.1.get_iff hr hj (region_diag t j)]
  exact hb.set hu hr hj (region_diag t j) _

/-- Adding several terms to one element. -/
theorem addTo_loop [Add α] {C : Mat} {R : Region} {i j n : Nat} {h1 : Heap α}
    {w : Nat → Nat → α} {body : Nat → Prog α Unit} {term : Nat → α}
    (hb : C.BecomesOn h h1 R w)
    (hbody : ∀ k, k < n → ∀ h1 w, C.BecomesOn h h1 R w →
      Ends (body k) h1 fun _ h' => C.BecomesOn h h' R (updateAt w i j (w i j + term k))) :
    Ends (forUp 0 n body) h1 fun _ h' =>
      C.BecomesOn h h' R
        (updateAt w i j ((List.range' 0 n).foldl (fun s k => s + term k) (w i j))) := by
  refine (ends_forUp_inv (fun m h' => C.BecomesOn h h' R
    (updateAt w i j ((List.range' 0 m).foldl (fun s k => s + term k) (w i j))))
    (Nat.zero_le _) ?_ ?_).mono fun _ _ hh => hh
  · intro k _ hk h2 hh
    refine (hbody k hk h2 _ hh).mono fun _ h3 hh3 => hh3.congr fun r c _ _ _ => ?_
    rw [updateAt_same, List.range'_1_concat, List.foldl_append]
    simp only [List.foldl_cons, List.foldl_nil, Nat.zero_add]
    unfold updateAt
    split <;> rfl
  · refine hb.congr fun r c _ _ _ => ?_
    unfold updateAt
    split
    · next e => obtain ⟨rfl, rfl⟩ := e; rfl
    · rfl

end StdBLAS

import Verif.Spec.Absorb
import Verif.Spec.Order
import Verif.Spec.Memory

/-! # Sums with an absorbing term -/

namespace StdBLAS
variable {α : Type} [Add α] [Sub α] [Mul α] [Div α] [ConjOps α] {bad : α → Prop}

theorem Absorbs.leftSum (N : Absorbs bad) {s : α} {n : Nat} {t : Nat → α}
    (hb : bad s ∨ ∃ k, k < n ∧ bad (t k)) : bad (StdBLAS.leftSum s n t) := by
  induction n with
  | zero =>
    rcases hb with hb | ⟨k, hk, _⟩
    · exact hb
    · omega
  | succ n ih =>
    refine N.add _ _ ?_
    rcases hb with hb | ⟨k, hk, hb⟩
    · exact Or.inl (ih (Or.inl hb))
    · by_cases e : k = n
      · exact Or.inr (e ▸ hb)
      · exact Or.inl (ih (Or.inr ⟨k, by omega, hb⟩))

theorem Absorbs.leftDiff (N : Absorbs bad) {s : α} {n : Nat} {t : Nat → α}
    (hb : bad s ∨ ∃ k, k < n ∧ bad (t k)) : bad (StdBLAS.leftDiff s n t) := by
  induction n with
  | zero =>
    rcases hb with hb | ⟨k, hk, _⟩
    · exact hb
    · omega
  | succ n ih =>
    refine N.sub _ _ ?_
    rcases hb with hb | ⟨k, hk, hb⟩
    · exact Or.inl (ih (Or.inl hb))
    · by_cases e : k = n
      · exact Or.inr (e ▸ hb)
      · exact Or.inl (ih (Or.inr ⟨k, by omega, hb⟩))

theorem Absorbs.products (N : Absorbs bad) {s : α} {n : Nat} {p q : Nat → α}
    (hb : bad s ∨ ∃ k, k < n ∧ (bad (p k) ∨ bad (q k))) :
    bad (StdBLAS.leftSum s n fun k => p k * q k) :=
  N.leftSum (hb.imp id fun ⟨k, hk, hb⟩ => ⟨k, hk, N.mul _ _ hb⟩)

theorem Absorbs.triTerm (N : Absorbs bad) {t : Triangle} {d : Diag} {a : Nat → Nat → α}
    {f : Nat → α} {r c : Nat} (hb : (triRegion t d r c ∧ bad (a r c)) ∨ bad (f c)) :
    bad (StdBLAS.triTerm d a f r c) := by
  unfold StdBLAS.triTerm
  split
  · next e =>
    obtain ⟨e1, rfl⟩ := e
    rcases hb with ⟨hb, _⟩ | hb
    · exact absurd rfl (hb.2 e1)
    · exact hb
  · exact N.mul _ _ (hb.imp And.right id)

theorem Absorbs.triSeq (N : Absorbs bad) {t : Triangle} {d : Diag} {n : Nat}
    {a : Nat → Nat → α} {f : Nat → α} {s : α} {r : Nat} (hr : r < n)
    (hb : bad s ∨ ∃ k, k < n ∧ ((triRegion t d r k ∧ bad (a r k)) ∨ (t.region r k ∧ bad (f k)))) :
    bad (StdBLAS.triSeq t d n a f s r) := by
  have hk' : ∀ k, (triRegion t d r k ∧ bad (a r k)) ∨ (t.region r k ∧ bad (f k)) →
      t.region r k ∧ bad (StdBLAS.triTerm d a f r k) := fun k hb => by
    rcases hb with hb | hb
    · exact ⟨hb.1.1, N.triTerm (Or.inl hb)⟩
    · exact ⟨hb.1, N.triTerm (t := t) (Or.inr hb.2)⟩
  cases t with
  | lower =>
    refine N.leftSum (hb.imp id fun ⟨k, hk, hb⟩ => ?_)
    obtain ⟨h1, h2⟩ := hk' k hb
    have h1 : k ≤ r := h1
    exact ⟨k, by omega, h2⟩
  | upper =>
    refine N.leftSum (hb.imp id fun ⟨k, hk, hb⟩ => ?_)
    obtain ⟨h1, h2⟩ := hk' k hb
    have h1 : r ≤ k := h1
    exact ⟨k - r, by omega, by rw [Nat.add_sub_cancel' h1]; exact h2⟩

theorem Absorbs.triSeqInPlace (N : Absorbs bad) {t : Triangle} {n : Nat}
    {a : Nat → Nat → α} {f : Nat → α} {s : α} {r : Nat} (hr : r < n)
    (hb : bad s ∨ ∃ k, k < n ∧ k ≠ r ∧ t.region r k ∧ (bad (a r k) ∨ bad (f k))) :
    bad (StdBLAS.triSeqInPlace t n a f s r) := by
  cases t with
  | lower =>
    refine N.leftSum (hb.imp id fun ⟨k, hk, hn, h1, hb⟩ => ?_)
    have h1 : k ≤ r := h1
    refine ⟨r - 1 - k, by omega, ?_⟩
    rw [show r - 1 - (r - 1 - k) = k by omega]
    exact N.mul _ _ hb
  | upper =>
    refine N.leftSum (hb.imp id fun ⟨k, hk, hn, h1, hb⟩ => ?_)
    have h1 : r ≤ k := h1
    refine ⟨k - r - 1, by omega, ?_⟩
    rw [show r + 1 + (k - r - 1) = k by omega]
    exact N.mul _ _ hb

theorem Absorbs.triElement (N : Absorbs bad) {before : Bool} {d : Diag} {n i : Nat} {t : Nat → α}
    {diag s : α} (hi : i < n)
    (hb : bad s ∨ bad diag ∨ ∃ k, k < n ∧ (if before then k < i else i < k) ∧ bad (t k)) :
    bad (StdBLAS.triElement before d n i t diag s) := by
  cases before with
  | true =>
    refine N.add _ _ ?_
    rcases hb with hb | hb | ⟨k, hk, h1, hb⟩
    · exact Or.inl (N.leftSum (Or.inl hb))
    · exact Or.inr hb
    · exact Or.inl (N.leftSum (Or.inr ⟨k, by simpa using h1, hb⟩))
  | false =>
    have tail : (∃ k, k < n ∧ (if false = true then k < i else i < k) ∧ bad (t k)) →
        ∃ k, k < n - 1 - i ∧ bad (t (i + 1 + k)) := fun ⟨k, hk, h1, hb⟩ => by
      have h1 : i < k := by simpa using h1
      exact ⟨k - i - 1, by omega, by rw [show i + 1 + (k - i - 1) = k by omega]; exact hb⟩
    cases d with
    | explicit =>
      refine N.leftSum ?_
      rcases hb with hb | hb | hb
      · exact Or.inl (N.add _ _ (Or.inl hb))
      · exact Or.inl (N.add _ _ (Or.inr hb))
      · exact Or.inr (tail hb)
    | implicitUnit =>
      refine N.add _ _ ?_
      rcases hb with hb | hb | hb
      · exact Or.inl (N.leftSum (Or.inl hb))
      · exact Or.inr hb
      · exact Or.inl (N.leftSum (Or.inr (tail hb)))

theorem Absorbs.solveRow (N : Absorbs bad) {t : Triangle} {d : Diag} {n i : Nat} {term : Nat → α}
    {b diag : α} (hi : i < n) (hb : bad b ∨ (d = .explicit ∧ bad diag) ∨
      ∃ k, k < n ∧ k ≠ i ∧ t.region i k ∧ bad (term k)) :
    bad (StdBLAS.solveRow t d n i term b diag) := by
  have key : ∀ s, ((bad b ∨ ∃ k, k < n ∧ k ≠ i ∧ t.region i k ∧ bad (term k)) → bad s) →
      bad (if d = .explicit then s / diag else s) := fun s hs => by
    split
    · refine N.div _ _ ?_
      rcases hb with hb | ⟨_, hb⟩ | hb
      · exact Or.inl (hs (Or.inl hb))
      · exact Or.inr hb
      · exact Or.inl (hs (Or.inr hb))
    · next e =>
      rcases hb with hb | ⟨e', _⟩ | hb
      · exact hs (Or.inl hb)
      · exact absurd e' e
      · exact hs (Or.inr hb)
  cases t with
  | lower =>
    refine key _ fun hb => N.leftDiff (hb.imp id fun ⟨k, hk, hn, h1, hb⟩ => ?_)
    have h1 : k ≤ i := h1
    exact ⟨k, by omega, hb⟩
  | upper =>
    refine key _ fun hb => N.leftDiff (hb.imp id fun ⟨k, hk, hn, h1, hb⟩ => ?_)
    have h1 : i ≤ k := h1
    exact ⟨k - i - 1, by omega, by rw [show i + 1 + (k - i - 1) = k by omega]; exact hb⟩

end StdBLAS

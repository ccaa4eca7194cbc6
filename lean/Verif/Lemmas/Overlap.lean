import Verif.Lemmas.Loops

/-!
# Loops over arguments that overlap

The iterations run in order; each one may read what the earlier ones have written.
-/

namespace StdBLAS
variable {α : Type}

/-- Element-wise loop over a vector; iteration `i` finds the results of the earlier ones, and elsewhere the old
contents. -/
theorem ends_vec_order {y : Vec} {body : Nat → Prog α Unit} (f : Nat → α) (h0 : Heap α) (hu : y.Unique)
    (hbody : ∀ i, i < y.ext → ∀ h, (∀ k, k < i → h (y.addr k) = some (f k)) →
      (∀ a, (∀ k, k < i → y.addr k ≠ a) → h a = h0 a) →
      Ends (body i) h fun _ h' => h' (y.addr i) = some (f i) ∧ ∀ a, a ≠ y.addr i → h' a = h a) :
    Ends (forUp 0 y.ext body) h0 fun _ h' => y.Becomes h0 h' f := by
  refine (ends_forUp_inv (fun i h => (∀ k, k < i → h (y.addr k) = some (f k)) ∧
    ∀ a, (∀ k, k < i → y.addr k ≠ a) → h a = h0 a) (Nat.zero_le _) ?_
    ⟨fun k hk => absurd hk (Nat.not_lt_zero k), fun _ _ => rfl⟩).mono ?_
  · rintro i - hi h ⟨h1, h2⟩
    refine (hbody i hi h h1 h2).mono ?_
    rintro _ h' ⟨r1, r2⟩
    refine ⟨fun k hk => ?_, fun a ha => ?_⟩
    · rcases Nat.lt_succ_iff_lt_or_eq.1 hk with hk | rfl
      · rw [r2 _ fun e => by have := hu k i (by omega) hi e; omega]; exact h1 k hk
      · exact r1
    · rw [r2 a (Ne.symm (ha i (Nat.lt_succ_self i)))]
      exact h2 a fun k hk => ha k (by omega)
  · rintro _ h' ⟨r1, r2⟩
    exact ⟨r1, fun a ha => r2 a fun k hk e => ha ⟨k, hk, e⟩⟩

/-- The same for a matrix, column by column. -/
theorem ends_mat_cols_order {C : Mat} {body : Nat → Nat → Prog α Unit} (f : Nat → Nat → α) (h0 : Heap α)
    (hu : C.Unique)
    (hbody : ∀ i j, i < C.rows → j < C.cols → ∀ h,
      (∀ k l, k < C.rows → l < C.cols → (l < j ∨ l = j ∧ k < i) → h (C.addr k l) = some (f k l)) →
      (∀ a, (∀ k l, k < C.rows → l < C.cols → (l < j ∨ l = j ∧ k < i) → C.addr k l ≠ a) → h a = h0 a) →
      Ends (body i j) h fun _ h' => h' (C.addr i j) = some (f i j) ∧ ∀ a, a ≠ C.addr i j → h' a = h a) :
    Ends (forUp 0 C.cols fun j => forUp 0 C.rows fun i => body i j) h0 fun _ h' => C.Becomes h0 h' f := by
  let I : Nat → Nat → Heap α → Prop := fun i j h =>
    (∀ k l, k < C.rows → l < C.cols → (l < j ∨ l = j ∧ k < i) → h (C.addr k l) = some (f k l)) ∧
    ∀ a, (∀ k l, k < C.rows → l < C.cols → (l < j ∨ l = j ∧ k < i) → C.addr k l ≠ a) → h a = h0 a
  refine (ends_forUp_inv (fun j h => I 0 j h) (Nat.zero_le _) ?_
    ⟨fun k l _ _ q => by omega, fun _ _ => rfl⟩).mono ?_
  · intro j _ hj h hI
    refine (ends_forUp_inv (fun i h => I i j h) (Nat.zero_le _) ?_ hI).mono ?_
    · rintro i - hi h ⟨h1, h2⟩
      refine (hbody i j hi hj h h1 h2).mono ?_
      rintro _ h' ⟨r1, r2⟩
      refine ⟨fun k l hk hl q => ?_, fun a ha => ?_⟩
      · by_cases e : k = i ∧ l = j
        · rw [e.1, e.2]; exact r1
        · rw [r2 _ fun e' => e (hu k l i j hk hl trivial hi hj trivial e')]
          exact h1 k l hk hl (by omega)
      · rw [r2 a (Ne.symm (ha i j hi hj (Or.inr ⟨rfl, Nat.lt_succ_self i⟩)))]
        exact h2 a fun k l hk hl q => ha k l hk hl (by omega)
    · rintro _ h' ⟨r1, r2⟩
      exact ⟨fun k l hk hl q => r1 k l hk hl (by omega), fun a ha =>
        r2 a fun k l hk hl q => ha k l hk hl (by omega)⟩
  · rintro _ h' ⟨r1, r2⟩
    exact ⟨fun k l hk hl _ => r1 k l hk hl (Or.inl hl), fun a ha =>
      r2 a fun k l hk hl q e => ha ⟨k, l, hk, hl, trivial, e⟩⟩

/-- The same for a matrix, row by row. -/
theorem ends_mat_rows_order {C : Mat} {body : Nat → Nat → Prog α Unit} (f : Nat → Nat → α) (h0 : Heap α)
    (hu : C.Unique)
    (hbody : ∀ i j, i < C.rows → j < C.cols → ∀ h,
      (∀ k l, k < C.rows → l < C.cols → (k < i ∨ k = i ∧ l < j) → h (C.addr k l) = some (f k l)) →
      (∀ a, (∀ k l, k < C.rows → l < C.cols → (k < i ∨ k = i ∧ l < j) → C.addr k l ≠ a) → h a = h0 a) →
      Ends (body i j) h fun _ h' => h' (C.addr i j) = some (f i j) ∧ ∀ a, a ≠ C.addr i j → h' a = h a) :
    Ends (forUp 0 C.rows fun i => forUp 0 C.cols fun j => body i j) h0 fun _ h' => C.Becomes h0 h' f := by
  have key := ends_mat_cols_order (C := ⟨C.cols, C.rows, fun i j => C.addr j i⟩)
    (body := fun i j => body j i) (fun i j => f j i) h0
    (fun i j k l hi hj _ hk hl _ e => (hu j i l k hj hi trivial hl hk trivial e).symm)
    (fun i j hi hj h h1 h2 => hbody j i hj hi h (fun k l hk hl q => h1 l k hl hk q)
      fun a ha => h2 a fun k l hk hl q => ha l k hl hk q)
  refine key.mono ?_
  rintro _ h' ⟨r1, r2⟩
  refine ⟨fun k l hk hl _ => r1 l k hl hk trivial, fun a ha => r2 a ?_⟩
  rintro ⟨k, l, hk, hl, -, e⟩
  exact ha ⟨l, k, hl, hk, trivial, e⟩

/-- A loop that adds to one cell. -/
theorem ends_acc [Add α] {p n : Nat} {body : Nat → Prog α Unit} (g : Nat → α) {h1 : Heap α} {s : α}
    (hs : h1 p = some s)
    (hbody : ∀ k, k < n → ∀ h v, h p = some v → (∀ a, a ≠ p → h a = h1 a) →
      Ends (body k) h fun _ h' => h' p = some (v + g k) ∧ ∀ a, a ≠ p → h' a = h a) :
    Ends (forUp 0 n body) h1 fun _ h' =>
      h' p = some ((List.range' 0 n).foldl (fun s k => s + g k) s) ∧ ∀ a, a ≠ p → h' a = h1 a := by
  refine ends_forUp_inv (fun k h => h p = some ((List.range' 0 k).foldl (fun s k => s + g k) s) ∧
    ∀ a, a ≠ p → h a = h1 a) (Nat.zero_le _) ?_ ⟨hs, fun _ _ => rfl⟩
  rintro k - hk h ⟨e1, e2⟩
  refine (hbody k hk h _ e1 e2).mono ?_
  rintro _ h' ⟨r1, r2⟩
  refine ⟨?_, fun a ha => (r2 a ha).trans (e2 a ha)⟩
  rw [r1, List.range'_1_concat, List.foldl_append]
  simp

/-- A loop that changes one cell, which holds `F k` before iteration `k`. -/
theorem ends_acc_of {p n : Nat} {body : Nat → Prog α Unit} (F : Nat → α) {h1 : Heap α}
    (hs : h1 p = some (F 0))
    (hbody : ∀ k, k < n → ∀ h, h p = some (F k) → (∀ a, a ≠ p → h a = h1 a) →
      Ends (body k) h fun _ h' => h' p = some (F (k + 1)) ∧ ∀ a, a ≠ p → h' a = h a) :
    Ends (forUp 0 n body) h1 fun _ h' => h' p = some (F n) ∧ ∀ a, a ≠ p → h' a = h1 a := by
  refine ends_forUp_inv (fun k h => h p = some (F k) ∧ ∀ a, a ≠ p → h a = h1 a) (Nat.zero_le _) ?_
    ⟨hs, fun _ _ => rfl⟩
  rintro k - hk h ⟨e1, e2⟩
  refine (hbody k hk h e1 e2).mono ?_
  rintro _ h' ⟨r1, r2⟩
  exact ⟨r1, fun a ha => (r2 a ha).trans (e2 a ha)⟩

open Classical in
/-- A loop that exchanges each element with its partner undoes each exchange later. -/
theorem ends_swap_all {ι : Type} {l : List ι} (hl : l.Nodup) (addr : ι → Nat) (σ : ι → ι)
    (hσ : ∀ i ∈ l, σ i ∈ l ∧ σ (σ i) = i) (inj : ∀ i ∈ l, ∀ k ∈ l, addr i = addr k → i = k)
    (f : ι → α) (h0 : Heap α) (hf : ∀ i ∈ l, h0 (addr i) = some (f i)) {body : ι → Prog α Unit}
    (hbody : ∀ i ∈ l, ∀ h v w, h (addr i) = some v → h (addr (σ i)) = some w → Ends (body i) h fun _ h' =>
      h' = Function.update (Function.update h (addr i) (some w)) (addr (σ i)) (some v)) :
    Ends (forEach l body) h0 fun _ h' => h' = h0 := by
  refine (ends_forEach_inv (fun pre h =>
    (∀ p ∈ l, h (addr p) = some (if (p ∈ pre ↔ σ p ∈ pre) then f p else f (σ p))) ∧
    ∀ a, (∀ p ∈ l, addr p ≠ a) → h a = h0 a) ?_
    ⟨fun p hp => by simpa using hf p hp, fun _ _ => rfl⟩).mono ?_
  · rintro pre i post e h ⟨h1, h2⟩
    have hi : i ∈ l := by rw [e]; simp
    have hn : i ∉ pre := by
      rw [e] at hl
      intro q
      exact (List.nodup_append.1 hl).2.2 i q i (by simp) rfl
    obtain ⟨hs, hss⟩ := hσ i hi
    refine (hbody i hi h _ _ (h1 i hi) (h1 _ hs)).mono ?_
    rintro _ h' rfl
    refine ⟨fun p hp => ?_, fun a ha => ?_⟩
    · by_cases e1 : p = σ i
      · subst e1
        rw [Function.update_self, hss]
        by_cases e2 : σ i = i
        · simp [e2]
        · by_cases e3 : σ i ∈ pre <;> simp [hn, e2, e3]
      · rw [Function.update_of_ne fun q => e1 (inj p hp _ hs q)]
        by_cases e2 : p = i
        · subst e2
          rw [Function.update_self, hss]
          by_cases e3 : σ p ∈ pre <;> simp [hn, Ne.symm e1, e3]
        · rw [Function.update_of_ne fun q => e2 (inj p hp _ hi q), h1 p hp]
          have e3 : σ p ≠ i := fun q => e1 (by rw [← q, (hσ p hp).2])
          simp [e2, e3]
    · rw [Function.update_of_ne (Ne.symm (ha _ hs)), Function.update_of_ne (Ne.symm (ha _ hi))]
      exact h2 a ha
  · rintro _ h' ⟨r1, r2⟩
    funext a
    by_cases q : ∃ p ∈ l, addr p = a
    · obtain ⟨p, hp, rfl⟩ := q
      rw [r1 p hp, hf p hp, if_pos (by simp [hp, (hσ p hp).1])]
    · exact r2 a fun p hp e => q ⟨p, hp, e⟩

end StdBLAS

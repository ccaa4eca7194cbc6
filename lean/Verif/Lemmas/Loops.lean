import Mathlib.Data.List.Nodup
import Verif.Spec.Memory

/-! # Loop rules -/

namespace StdBLAS
variable {α β γ ι κ σ : Type} {h : Heap α}

/-- Each iteration owns a set of cells; it computes their new contents from their old
contents and from cells that no iteration owns. -/
theorem ends_forEach_own {l : List ι} {body : ι → Prog α Unit}
    (own : ι → Nat → Prop) (g : ι → Heap α) (h0 : Heap α)
    (hdisj : l.Pairwise fun i j => ∀ a, own i a → ¬ own j a)
    (hbody : ∀ i ∈ l, ∀ h, (∀ a, (∀ k ∈ l, ¬ own k a) → h a = h0 a) →
      (∀ a, own i a → h a = h0 a) →
      Ends (body i) h (fun _ h' =>
        (∀ a, own i a → h' a = g i a) ∧ ∀ a, ¬ own i a → h' a = h a)) :
    Ends (forEach l body) h0 (fun _ h' =>
      (∀ i ∈ l, ∀ a, own i a → h' a = g i a) ∧
        ∀ a, (∀ k ∈ l, ¬ own k a) → h' a = h0 a) := by
  have key := ends_forEach_inv (l := l) (body := body) (h := h0)
    (fun pre h => (∀ i ∈ pre, ∀ a, own i a → h a = g i a) ∧
      ∀ a, (∀ k ∈ pre, ¬ own k a) → h a = h0 a) ?_ (by simp)
  · exact key
  · rintro pre i post e h ⟨hpre, hfr⟩
    have hi : ∀ k ∈ pre, ∀ a, own k a → ¬ own i a := by
      rw [e, List.pairwise_append] at hdisj
      exact fun k hk => hdisj.2.2 k hk i (by simp)
    have hsub : ∀ k ∈ pre, k ∈ l := fun k hk => by rw [e]; simp [hk]
    refine (hbody i (by rw [e]; simp) h
      (fun a ha => hfr a fun k hk => ha k (hsub k hk))
      (fun a ha => hfr a fun k hk hka => hi k hk a hka ha)).mono ?_
    rintro _ h' ⟨h1, h2⟩
    refine ⟨?_, ?_⟩
    · intro k hk a ha
      rcases List.mem_append.1 hk with hk | hk
      · rw [h2 a (hi k hk a ha)]; exact hpre k hk a ha
      · obtain rfl := List.mem_singleton.1 hk
        exact h1 a ha
    · intro a ha
      rw [h2 a (ha i (by simp))]
      exact hfr a fun k hk => ha k (by simp [hk])

/-- Element-wise loop: each iteration writes one cell of its own. -/
theorem ends_forEach_cells {l : List ι} {body : ι → Prog α Unit}
    (addr : ι → Nat) (f : ι → α) (h0 : Heap α)
    (hinj : l.Pairwise fun i j => addr i ≠ addr j)
    (hbody : ∀ i ∈ l, ∀ h, (∀ a, (∀ k ∈ l, addr k ≠ a) → h a = h0 a) →
      h (addr i) = h0 (addr i) →
      Ends (body i) h (fun _ h' => h' (addr i) = some (f i) ∧ ∀ a, a ≠ addr i → h' a = h a)) :
    Ends (forEach l body) h0 (fun _ h' =>
      (∀ i ∈ l, h' (addr i) = some (f i)) ∧ ∀ a, (∀ k ∈ l, addr k ≠ a) → h' a = h0 a) := by
  refine (ends_forEach_own (fun i a => addr i = a) (fun i _ => some (f i)) h0
    (hinj.imp fun hne a e e' => hne (e.trans e'.symm)) ?_).mono ?_
  · intro i hi h h1 h2
    refine (hbody i hi h h1 (h2 _ rfl)).mono ?_
    rintro _ h' ⟨h3, h4⟩
    exact ⟨fun a e => e ▸ h3, fun a hne => h4 a (Ne.symm hne)⟩
  · rintro _ h' ⟨h1, h2⟩
    exact ⟨fun i hi => h1 i hi _ rfl, h2⟩

/-- Two nested element-wise loops. -/
theorem ends_forEach2_cells {l : List ι} {m : ι → List κ} {body : ι → κ → Prog α Unit}
    (addr : ι → κ → Nat) (f : ι → κ → α) (h0 : Heap α)
    (hl : l.Nodup) (hm : ∀ p ∈ l, (m p).Nodup)
    (hinj : ∀ p ∈ l, ∀ q ∈ m p, ∀ p' ∈ l, ∀ q' ∈ m p',
      addr p q = addr p' q' → p = p' ∧ q = q')
    (hbody : ∀ p ∈ l, ∀ q ∈ m p, ∀ h,
      (∀ a, (∀ p' ∈ l, ∀ q' ∈ m p', addr p' q' ≠ a) → h a = h0 a) →
      h (addr p q) = h0 (addr p q) →
      Ends (body p q) h (fun _ h' =>
        h' (addr p q) = some (f p q) ∧ ∀ a, a ≠ addr p q → h' a = h a)) :
    Ends (forEach l fun p => forEach (m p) (body p)) h0 (fun _ h' =>
      (∀ p ∈ l, ∀ q ∈ m p, h' (addr p q) = some (f p q)) ∧
        ∀ a, (∀ p ∈ l, ∀ q ∈ m p, addr p q ≠ a) → h' a = h0 a) := by
  rw [forEach_nest]
  have mem : ∀ p q, (p, q) ∈ (l.flatMap fun i => (m i).map (Prod.mk i)) ↔ p ∈ l ∧ q ∈ m p := by
    intro p q
    simp only [List.mem_flatMap, List.mem_map, Prod.mk.injEq]
    constructor
    · rintro ⟨i, hi, k, hk, rfl, rfl⟩; exact ⟨hi, hk⟩
    · rintro ⟨hp, hq⟩; exact ⟨p, hp, q, hq, rfl, rfl⟩
  refine (ends_forEach_cells (fun p : ι × κ => addr p.1 p.2) (fun p => f p.1 p.2) h0 ?_ ?_).mono ?_
  · have hnd : (l.flatMap fun i => (m i).map (Prod.mk i)).Nodup := by
      rw [List.nodup_flatMap]
      refine ⟨fun i hi => (hm i hi).map (fun a b e => (Prod.mk.inj e).2), ?_⟩
      refine hl.imp_of_mem ?_
      intro a b _ _ hab p h1 h2
      simp only [List.mem_map] at h1 h2
      obtain ⟨_, _, rfl⟩ := h1
      obtain ⟨_, _, e⟩ := h2
      exact hab (Prod.mk.inj e).1.symm
    refine hnd.imp_of_mem ?_
    rintro ⟨p, q⟩ ⟨p', q'⟩ h1 h2 hne e
    obtain ⟨a, b⟩ := (mem _ _).1 h1
    obtain ⟨a', b'⟩ := (mem _ _).1 h2
    obtain ⟨rfl, rfl⟩ := hinj p a q b p' a' q' b' e
    exact hne rfl
  · rintro ⟨p, q⟩ hpq h h1 h2
    obtain ⟨a, b⟩ := (mem _ _).1 hpq
    refine hbody p a q b h (fun c hc => h1 c ?_) h2
    rintro ⟨p', q'⟩ h'
    obtain ⟨a', b'⟩ := (mem _ _).1 h'
    exact hc p' a' q' b'
  · rintro _ h' ⟨h1, h2⟩
    refine ⟨fun p hp q hq => h1 (p, q) ((mem p q).2 ⟨hp, hq⟩), fun a ha => h2 a ?_⟩
    rintro ⟨p, q⟩ hpq
    obtain ⟨c, d⟩ := (mem _ _).1 hpq
    exact ha p c q d

theorem mem_up {lo hi k : Nat} : k ∈ List.range' lo (hi - lo) ↔ lo ≤ k ∧ k < hi := by
  rw [List.mem_range'_1]; omega

/-- Invariant rule for ascending loops. -/
theorem ends_forUp_inv {lo hi : Nat} {body : Nat → Prog α Unit} (I : Nat → Heap α → Prop)
    (hle : lo ≤ hi)
    (hbody : ∀ k, lo ≤ k → k < hi → ∀ h, I k h → Ends (body k) h (fun _ h' => I (k + 1) h'))
    (h0 : I lo h) :
    Ends (forUp lo hi body) h (fun _ h' => I hi h') := by
  unfold forUp
  obtain ⟨n, rfl⟩ := Nat.exists_eq_add_of_le hle
  rw [Nat.add_sub_cancel_left]
  clear hle
  induction n generalizing lo h with
  | zero => simpa using h0
  | succ n ih =>
    rw [List.range'_succ, forEach_cons, ends_bind]
    refine (hbody lo le_rfl (by omega) h h0).mono fun _ h' r => ?_
    have := ih (lo := lo + 1) r (fun k h1 h2 => hbody k (by omega) (by omega))
    rwa [Nat.add_right_comm, Nat.add_assoc] at this

/-- Invariant rule for ascending loops that may be empty because `hi ≤ lo`. -/
theorem ends_forUp_inv' {lo hi : Nat} {body : Nat → Prog α Unit} (I : Nat → Heap α → Prop)
    (hbody : ∀ k, lo ≤ k → k < hi → ∀ h, I k h → Ends (body k) h (fun _ h' => I (k + 1) h'))
    (h0 : I lo h) :
    Ends (forUp lo hi body) h (fun _ h' => I (max lo hi) h') := by
  rcases le_total lo hi with hle | hle
  · rw [max_eq_right hle]; exact ends_forUp_inv I hle hbody h0
  · rw [max_eq_left hle]
    unfold forUp
    rw [Nat.sub_eq_zero_of_le hle]
    simpa using h0

/-- Invariant rule for descending loops. -/
theorem ends_forDown_inv {n : Nat} {body : Nat → Prog α Unit} (I : Nat → Heap α → Prop)
    (hbody : ∀ k, k < n → ∀ h, I (k + 1) h → Ends (body k) h (fun _ h' => I k h'))
    (h0 : I n h) :
    Ends (forDown n body) h (fun _ h' => I 0 h') := by
  unfold forDown
  induction n generalizing h with
  | zero => simpa using h0
  | succ n ih =>
    rw [List.range_succ, List.reverse_append, List.reverse_singleton, List.singleton_append,
      forEach_cons, ends_bind]
    refine (hbody n (by omega) h h0).mono fun _ h' r => ?_
    exact ih (fun k hk => hbody k (by omega)) r

/-- A loop that only reads memory computes a fold. -/
theorem ends_foldEach_read {l : List ι} {body : σ → ι → Prog α σ} (step : σ → ι → σ)
    (hbody : ∀ i ∈ l, ∀ s, Ends (body s i) h (fun s' h' => s' = step s i ∧ h' = h)) {s : σ} :
    Ends (foldEach l s body) h (fun s' h' => s' = l.foldl step s ∧ h' = h) := by
  refine (ends_foldEach_fold (R := fun t s h' => s = t ∧ h' = h) step ?_ ⟨rfl, rfl⟩).mono
    fun _ _ r => r
  rintro i hi t s h' ⟨rfl, rfl⟩
  exact hbody i hi s

/-- Invariant rule for ascending loops that only read memory. -/
theorem ends_foldUp_inv {n : Nat} {body : σ → Nat → Prog α σ} (I : Nat → σ → Prop)
    (hbody : ∀ k, k < n → ∀ s, I k s → Ends (body s k) h (fun s' h' => h' = h ∧ I (k + 1) s'))
    {s : σ} (h0 : I 0 s) :
    Ends (foldEach (List.range' 0 n) s body) h (fun s' h' => h' = h ∧ I n s') := by
  suffices H : ∀ m lo s, lo + m = n → I lo s →
      Ends (foldEach (List.range' lo m) s body) h (fun s' h' => h' = h ∧ I n s') from
    H n 0 s (by omega) h0
  intro m
  induction m with
  | zero => intro lo s e hi; subst e; simpa [foldEach] using hi
  | succ m ih =>
    intro lo s e hi
    rw [List.range'_succ]
    change Ends (body s lo >>= fun s' => foldEach (List.range' (lo + 1) m) s' body) h _
    rw [ends_bind]
    refine (hbody lo (by omega) s hi).mono ?_
    rintro s' h' ⟨rfl, r⟩
    exact ih (lo + 1) s' (by omega) r

/-- Accumulating into one cell. -/
theorem ends_forEach_acc {l : List ι} {body : ι → Prog α Unit} (a : Nat) (step : α → ι → α)
    (hbody : ∀ i ∈ l, ∀ s h', h' a = some s → (∀ b, b ≠ a → h' b = h b) →
      Ends (body i) h' (fun _ h'' => h'' a = some (step s i) ∧ ∀ b, b ≠ a → h'' b = h' b))
    {s : α} (h0 : h a = some s) :
    Ends (forEach l body) h
      (fun _ h' => h' a = some (l.foldl step s) ∧ ∀ b, b ≠ a → h' b = h b) := by
  refine ends_forEach_fold (fun s h' => h' a = some s ∧ ∀ b, b ≠ a → h' b = h b) step ?_
    ⟨h0, fun _ _ => rfl⟩
  rintro i hi s h' ⟨h1, h2⟩
  refine (hbody i hi s h' h1 h2).mono ?_
  rintro _ h'' ⟨h3, h4⟩
  exact ⟨h3, fun b hb => (h4 b hb).trans (h2 b hb)⟩

/-! ## Views under unrelated writes -/

theorem VecV.Holds.of_onlyChanges {x : VecV α} {h h' : Heap α} {f : Nat → α} {P : Nat → Prop}
    (hx : x.Holds h f) (hap : Apart x.toVec.Cell P) (hc : OnlyChanges P h h') : x.Holds h' f := by
  intro i hi
  obtain ⟨v, hv, e⟩ := hx i hi
  exact ⟨v, by rw [hc _ (hap _ ⟨i, hi, rfl⟩)]; exact hv, e⟩

theorem MatV.HoldsOn.of_onlyChanges {A : MatV α} {h h' : Heap α} {f : Nat → Nat → α}
    {R : Region} {P : Nat → Prop} (hA : A.HoldsOn h R f) (hap : Apart (A.toMat.CellOn R) P)
    (hc : OnlyChanges P h h') : A.HoldsOn h' R f := by
  intro i j hi hj hr
  obtain ⟨v, hv, e⟩ := hA i j hi hj hr
  exact ⟨v, by rw [hc _ (hap _ ⟨i, j, hi, hj, hr, rfl⟩)]; exact hv, e⟩

theorem OnlyChanges.mono {P P' : Nat → Prop} {h h' : Heap α} (hc : OnlyChanges P h h')
    (hp : ∀ a, P a → P' a) : OnlyChanges P' h h' := fun a ha => hc a fun h => ha (hp a h)

/-- Element-wise loop over a vector. -/
theorem ends_vec_cells {y : Vec} {body : Nat → Prog α Unit} (f : Nat → α) (h0 : Heap α)
    (hu : y.Unique)
    (hbody : ∀ i, i < y.ext → ∀ h, OnlyChanges y.Cell h0 h → h (y.addr i) = h0 (y.addr i) →
      Ends (body i) h (fun _ h' => h' (y.addr i) = some (f i) ∧ ∀ a, a ≠ y.addr i → h' a = h a)) :
    Ends (forUp 0 y.ext body) h0 (fun _ h' => y.Becomes h0 h' f) := by
  unfold forUp
  refine (ends_forEach_cells y.addr f h0 ?_ ?_).mono ?_
  · refine (List.nodup_range' (step := 1)).imp_of_mem ?_
    intro a b ha hb hne e
    exact hne (hu a b (mem_up.1 ha).2 (mem_up.1 hb).2 e)
  · intro i hi h h1 h2
    refine hbody i (mem_up.1 hi).2 h (fun a ha => h1 a fun k hk e => ha ⟨k, (mem_up.1 hk).2, e⟩) h2
  · rintro _ h' ⟨h1, h2⟩
    exact ⟨fun i hi => h1 i (mem_up.2 ⟨by omega, hi⟩),
      fun a ha => h2 a fun k hk e => ha ⟨k, (mem_up.1 hk).2, e⟩⟩

/-- Element-wise loop nest over (a region of) a matrix, rows outside. -/
theorem ends_mat_rows {C : Mat} {R : Region} {l : List Nat} {m : Nat → List Nat}
    {body : Nat → Nat → Prog α Unit} (f : Nat → Nat → α) (h0 : Heap α) (hu : C.UniqueOn R)
    (hl : l.Nodup) (hm : ∀ i ∈ l, (m i).Nodup)
    (hvis : ∀ i j, (i ∈ l ∧ j ∈ m i) ↔ (i < C.rows ∧ j < C.cols ∧ R i j))
    (hbody : ∀ i j, i < C.rows → j < C.cols → R i j → ∀ h, OnlyChanges (C.CellOn R) h0 h →
      h (C.addr i j) = h0 (C.addr i j) →
      Ends (body i j) h (fun _ h' =>
        h' (C.addr i j) = some (f i j) ∧ ∀ a, a ≠ C.addr i j → h' a = h a)) :
    Ends (forEach l fun i => forEach (m i) (body i)) h0 (fun _ h' => C.BecomesOn h0 h' R f) := by
  refine (ends_forEach2_cells C.addr f h0 hl hm ?_ ?_).mono ?_
  · intro i hi j hj k hk n hn e
    obtain ⟨a1, a2, a3⟩ := (hvis i j).1 ⟨hi, hj⟩
    obtain ⟨b1, b2, b3⟩ := (hvis k n).1 ⟨hk, hn⟩
    exact hu i j k n a1 a2 a3 b1 b2 b3 e
  · intro i hi j hj h h1 h2
    obtain ⟨a1, a2, a3⟩ := (hvis i j).1 ⟨hi, hj⟩
    refine hbody i j a1 a2 a3 h (fun a ha => h1 a ?_) h2
    intro k hk n hn e
    obtain ⟨b1, b2, b3⟩ := (hvis k n).1 ⟨hk, hn⟩
    exact ha ⟨k, n, b1, b2, b3, e⟩
  · rintro _ h' ⟨h1, h2⟩
    refine ⟨fun i j a1 a2 a3 => ?_, fun a ha => h2 a ?_⟩
    · obtain ⟨hi, hj⟩ := (hvis i j).2 ⟨a1, a2, a3⟩
      exact h1 i hi j hj
    · intro k hk n hn e
      obtain ⟨b1, b2, b3⟩ := (hvis k n).1 ⟨hk, hn⟩
      exact ha ⟨k, n, b1, b2, b3, e⟩

/-- Element-wise loop nest over (a region of) a matrix, columns outside. -/
theorem ends_mat_cols {C : Mat} {R : Region} {l : List Nat} {m : Nat → List Nat}
    {body : Nat → Nat → Prog α Unit} (f : Nat → Nat → α) (h0 : Heap α) (hu : C.UniqueOn R)
    (hl : l.Nodup) (hm : ∀ j ∈ l, (m j).Nodup)
    (hvis : ∀ i j, (j ∈ l ∧ i ∈ m j) ↔ (i < C.rows ∧ j < C.cols ∧ R i j))
    (hbody : ∀ i j, i < C.rows → j < C.cols → R i j → ∀ h, OnlyChanges (C.CellOn R) h0 h →
      h (C.addr i j) = h0 (C.addr i j) →
      Ends (body j i) h (fun _ h' =>
        h' (C.addr i j) = some (f i j) ∧ ∀ a, a ≠ C.addr i j → h' a = h a)) :
    Ends (forEach l fun j => forEach (m j) (body j)) h0 (fun _ h' => C.BecomesOn h0 h' R f) := by
  refine (ends_forEach2_cells (fun j i => C.addr i j) (fun j i => f i j) h0 hl hm ?_ ?_).mono ?_
  · intro j hj i hi n hn k hk e
    obtain ⟨a1, a2, a3⟩ := (hvis i j).1 ⟨hj, hi⟩
    obtain ⟨b1, b2, b3⟩ := (hvis k n).1 ⟨hn, hk⟩
    exact (hu i j k n a1 a2 a3 b1 b2 b3 e).symm
  · intro j hj i hi h h1 h2
    obtain ⟨a1, a2, a3⟩ := (hvis i j).1 ⟨hj, hi⟩
    refine hbody i j a1 a2 a3 h (fun a ha => h1 a ?_) h2
    intro n hn k hk e
    obtain ⟨b1, b2, b3⟩ := (hvis k n).1 ⟨hn, hk⟩
    exact ha ⟨k, n, b1, b2, b3, e⟩
  · rintro _ h' ⟨h1, h2⟩
    refine ⟨fun i j a1 a2 a3 => ?_, fun a ha => h2 a ?_⟩
    · obtain ⟨hj, hi⟩ := (hvis i j).2 ⟨a1, a2, a3⟩
      exact h1 j hj i hi
    · intro n hn k hk e
      obtain ⟨b1, b2, b3⟩ := (hvis k n).1 ⟨hn, hk⟩
      exact ha ⟨k, n, b1, b2, b3, e⟩

/-- Full matrix, rows outside. -/
theorem ends_mat_full_rows {C : Mat} {body : Nat → Nat → Prog α Unit} (f : Nat → Nat → α)
    (h0 : Heap α) (hu : C.Unique) {r c : Nat} (hr : r = C.rows) (hc : c = C.cols)
    (hbody : ∀ i j, i < C.rows → j < C.cols → ∀ h, OnlyChanges C.Cell h0 h →
      h (C.addr i j) = h0 (C.addr i j) →
      Ends (body i j) h (fun _ h' =>
        h' (C.addr i j) = some (f i j) ∧ ∀ a, a ≠ C.addr i j → h' a = h a)) :
    Ends (forUp 0 r fun i => forUp 0 c fun j => body i j) h0
      (fun _ h' => C.Becomes h0 h' f) := by
  subst hr hc
  refine ends_mat_rows (R := everywhere) f h0 hu (List.nodup_range' (step := 1))
    (fun _ _ => List.nodup_range' (step := 1)) ?_ (fun i j hi hj _ => hbody i j hi hj)
  intro i j; simp [everywhere]

/-- Full matrix, columns outside. -/
theorem ends_mat_full_cols {C : Mat} {body : Nat → Nat → Prog α Unit} (f : Nat → Nat → α)
    (h0 : Heap α) (hu : C.Unique) {r c : Nat} (hr : r = C.rows) (hc : c = C.cols)
    (hbody : ∀ i j, i < C.rows → j < C.cols → ∀ h, OnlyChanges C.Cell h0 h →
      h (C.addr i j) = h0 (C.addr i j) →
      Ends (body j i) h (fun _ h' =>
        h' (C.addr i j) = some (f i j) ∧ ∀ a, a ≠ C.addr i j → h' a = h a)) :
    Ends (forUp 0 c fun j => forUp 0 r fun i => body j i) h0
      (fun _ h' => C.Becomes h0 h' f) := by
  subst hr hc
  refine ends_mat_cols (R := everywhere) f h0 hu (List.nodup_range' (step := 1))
    (fun _ _ => List.nodup_range' (step := 1)) ?_ (fun i j hi hj _ => hbody i j hi hj)
  intro i j; simp [everywhere]; tauto

end StdBLAS

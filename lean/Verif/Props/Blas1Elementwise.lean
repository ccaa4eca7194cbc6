import Verif.Lemmas.Blas1
import Verif.Props.Witness

/-!
# Properties C09 - C12: copy, swap_elements, scale, add
-/

namespace StdBLAS
variable {α : Type}
open Witness

/-! ## C09 copy -/

/-- **C09** `copy(x, y)`, rank 1: afterwards `y(i)` is the old `x(i)`; nothing else changes.
`x` may have any accessor; `x` and `y` may overlap element by element (e.g. be the same). -/
theorem C09_copy_vector (x : VecV α) (y : Vec) (h : Heap α) (f : Nat → α)
    (hx : x.Holds h f) (hy : y.Alloc h) (hext : y.ext ≤ x.ext) (hu : y.Unique)
    (hal : x.toVec.Aligned y) :
    Ends (copy1 x y) h fun _ h' => y.Becomes h h' f := by
  refine ends_vec_cells f h hu ?_
  intro i hi h1 hc he
  obtain ⟨v, hv, ev⟩ := hx i (by omega)
  obtain ⟨w, hw⟩ := hy i hi
  have hr := hal.read hc (i := i) (by omega) (fun _ => he)
  simp only [ends_bind, ends_vecV_get, ends_vec_set]
  refine ⟨by omega, v, hr.trans hv, hi, ⟨w, he.trans hw⟩, by simp [ev], fun a ha => by simp [ha]⟩

example : Ends (copy1 (x.view : VecV ℤ) y) (heap ℤ) fun _ h' =>
    y.Becomes (heap ℤ) h' (vals ℤ x) :=
  C09_copy_vector _ _ _ _ (holdsV bx) (alloc by_) (by decide) (by view_facts) (by view_facts)

/-- **C09** `copy(x, y)`, rank 2. -/
theorem C09_copy_matrix (x : MatV α) (y : Mat) (h : Heap α) (f : Nat → Nat → α)
    (hx : x.Holds h f) (hy : y.Alloc h) (hr : y.rows ≤ x.rows) (hc : y.cols ≤ x.cols)
    (hu : y.Unique) (hal : x.toMat.Aligned y) :
    Ends (copy2 x y) h fun _ h' => y.Becomes h h' f := by
  refine ends_mat_full_cols f h hu rfl rfl ?_
  intro i j hi hj h1 hch he
  obtain ⟨v, hv, ev⟩ := hx i j (by omega) (by omega) trivial
  obtain ⟨w, hw⟩ := hy i j hi hj trivial
  have hrd := hal.read hch (i := i) (j := j) (by omega) (by omega) (fun _ _ => he)
  simp only [ends_bind, ends_matV_get, ends_mat_set]
  exact ⟨⟨by omega, by omega⟩, v, hrd.trans hv, ⟨hi, hj⟩, ⟨w, he.trans hw⟩, by simp [ev],
    fun a ha => by simp [ha]⟩

example : Ends (copy2 (A.view : MatV ℤ) B) (heap ℤ) fun _ h' =>
    B.Becomes (heap ℤ) h' (mvals ℤ A) :=
  C09_copy_matrix _ _ _ _ (mholdsV bA) (malloc bB) (by decide) (by decide)
    (by view_facts) (by view_facts)

/-- **C09** copying a view onto itself changes nothing at all. -/
theorem C09_copy_self (y : Vec) (h : Heap α) (f : Nat → α) (hy : y.Holds h f) (hu : y.Unique) :
    Ends (copy1 y.view y) h fun _ h' => h' = h := by
  refine (C09_copy_vector y.view y h f (fun i hi => ⟨_, hy i hi, rfl⟩)
    (fun i hi => ⟨_, hy i hi⟩) le_rfl hu hu).mono ?_
  rintro _ h' ⟨h1, h2⟩
  funext a
  by_cases ha : y.Cell a
  · obtain ⟨i, hi, rfl⟩ := ha
    rw [h1 i hi, hy i hi]
  · exact h2 a ha

example : Ends (copy1 (y.view : VecV ℤ) y) (heap ℤ) fun _ h' => h' = heap ℤ :=
  C09_copy_self _ _ _ (holds by_) (by view_facts)

/-- **C09** precondition is sharp: copying into a longer vector reads outside `x`. -/
theorem C09_copy_too_long (x : VecV α) (y : Vec) (h : Heap α) (f : Nat → α)
    (hx : x.Holds h f) (hy : y.Alloc h) (hext : x.ext < y.ext) (hu : y.Unique)
    (hal : x.toVec.Aligned y) : Fails (copy1 x y) h .ub := by
  unfold copy1 forUp
  have e : y.ext - 0 = x.ext + (y.ext - x.ext) := by omega
  rw [e, ← List.range'_append_1, forEach_append]
  refine fails_bind ?_
  have hpre := C09_copy_vector x ⟨x.ext, y.addr⟩ h f hx (fun i hi => hy i (by simp at hi; omega))
    le_rfl (fun i k hi hk => hu i k (by simp at hi; omega) (by simp at hk; omega))
    (fun i k hi hk => hal i k hi (by simp at hk; omega))
  unfold copy1 forUp at hpre
  have body_eq : forEach (List.range' 0 x.ext) (fun i => do
      let v ← x.get i
      Vec.set ⟨x.ext, y.addr⟩ i v) = forEach (List.range' 0 x.ext) (fun i => do
      let v ← x.get i
      y.set i v : Nat → Prog α Unit) := by
    have : ∀ l : List Nat, (∀ i ∈ l, i < x.ext) → forEach l (fun i => do
        let v ← x.get i
        Vec.set ⟨x.ext, y.addr⟩ i v) = forEach l (fun i => do
        let v ← x.get i
        y.set i v : Nat → Prog α Unit) := by
      intro l hl
      induction l with
      | nil => rfl
      | cons i l ih =>
        rw [forEach_cons, forEach_cons, ih fun k hk => hl k (by simp [hk])]
        have hi := hl i (by simp)
        have : ∀ v : α, Vec.set ⟨x.ext, y.addr⟩ i v = y.set i v := by
          intro v; unfold Vec.set; rw [if_pos (by simpa using hi), if_pos (by omega)]
        simp only [this]
    exact this _ fun i hi => by simpa using hi
  simp only [Nat.sub_zero] at hpre
  rw [body_eq] at hpre
  refine hpre.mono fun _ h' _ => ?_
  obtain ⟨n, hn⟩ : ∃ n, y.ext - x.ext = n + 1 := ⟨y.ext - x.ext - 1, by omega⟩
  rw [hn, List.range'_succ, forEach_cons]
  exact fails_bind_left (fails_bind_left (fails_vecV_get (by omega)))

example : Fails (copy1 ((⟨2, x.addr⟩ : Vec).view : VecV ℤ) y) (heap ℤ) .ub :=
  C09_copy_too_long _ _ _ (vals ℤ x)
    (fun i hi => ⟨_, heap_lt (bx i (by simp only [Vec.view, x] at *; omega)), rfl⟩)
    (alloc by_) (by decide) (by view_facts)
    (by intro i k hi hk e; simp only [x, y, Vec.view] at *; omega)

/-! ## C10 swap_elements -/

/-- **C10** `swap_elements(x, y)`, rank 1: the contents are exchanged, nothing else changes.
`x` and `y` may be disjoint or overlap element by element (e.g. be the same view). -/
theorem C10_swap_vector (x y : Vec) (h : Heap α) (f g : Nat → α)
    (hx : x.Holds h f) (hy : y.Holds h g) (hext : x.ext = y.ext)
    (hux : x.Unique) (huy : y.Unique) (hal : x.Aligned y) :
    Ends (swap1 x y) h fun _ h' =>
      x.Holds h' g ∧ y.Holds h' f ∧ OnlyChanges (fun a => x.Cell a ∨ y.Cell a) h h' := by
  classical
  unfold swap1 forUp
  refine (ends_forEach_own (fun i a => a = x.addr i ∨ a = y.addr i)
    (fun i a => if a = y.addr i then some (f i) else some (g i)) h ?_ ?_).mono ?_
  · refine (List.nodup_range' (step := 1)).imp_of_mem ?_
    intro i k hi hk hne a h1 h2
    have hi := (mem_up.1 hi).2
    have hk := (mem_up.1 hk).2
    rcases h1 with rfl | rfl <;> rcases h2 with e | e
    · exact hne (hux i k (by omega) (by omega) e)
    · exact hne (hal i k (by omega) (by omega) e)
    · exact hne (hal k i (by omega) (by omega) e.symm).symm
    · exact hne (huy i k (by omega) (by omega) e)
  · intro i hi h1 _ h2
    have hi := (mem_up.1 hi).2
    have ex := (h2 _ (Or.inl rfl)).trans (hx i (by omega))
    have ey := (h2 _ (Or.inr rfl)).trans (hy i hi)
    simp only [ends_bind, ends_vec_get, ends_vec_set]
    refine ⟨by omega, f i, ex, hi, g i, ey, by omega, ⟨_, ex⟩, hi, ?_, ?_, ?_⟩
    · by_cases e : y.addr i = x.addr i
      · exact ⟨g i, by simp [e]⟩
      · exact ⟨g i, by simp [e, ey]⟩
    · rintro a (rfl | rfl)
      · by_cases e : x.addr i = y.addr i
        · simp [e]
        · simp [e]
      · simp
    · intro a ha
      simp only [not_or] at ha
      simp [ha.1, ha.2]
  · rintro _ h' ⟨h1, h2⟩
    refine ⟨fun i hi => ?_, fun i hi => ?_, fun a ha => h2 a ?_⟩
    · have := h1 i (mem_up.2 ⟨by omega, by omega⟩) (x.addr i) (Or.inl rfl)
      rw [this]
      split
      · next e =>
        have : h (x.addr i) = h (y.addr i) := by rw [e]
        rw [hx i hi, hy i (by omega)] at this
        exact this
      · rfl
    · have := h1 i (mem_up.2 ⟨by omega, by omega⟩) (y.addr i) (Or.inr rfl)
      simpa using this
    · rintro k hk (rfl | rfl)
      · exact ha (Or.inl ⟨k, by have := (mem_up.1 hk).2; omega, rfl⟩)
      · exact ha (Or.inr ⟨k, by have := (mem_up.1 hk).2; omega, rfl⟩)

example : Ends (swap1 x y) (heap ℤ) fun _ h' =>
    x.Holds h' (vals ℤ y) ∧ y.Holds h' (vals ℤ x) ∧
      OnlyChanges (fun a => x.Cell a ∨ y.Cell a) (heap ℤ) h' :=
  C10_swap_vector _ _ _ _ _ (holds bx) (holds by_) rfl (by view_facts) (by view_facts)
    (by view_facts)

/-- **C10** swapping twice restores the whole memory. -/
theorem C10_swap_vector_involution (x y : Vec) (h : Heap α) (f g : Nat → α)
    (hx : x.Holds h f) (hy : y.Holds h g) (hext : x.ext = y.ext)
    (hux : x.Unique) (huy : y.Unique) (hal : x.Aligned y) :
    Ends (do swap1 x y; swap1 x y) h fun _ h' => h' = h := by
  rw [ends_bind]
  refine (C10_swap_vector x y h f g hx hy hext hux huy hal).mono ?_
  rintro _ h1 ⟨a1, a2, a3⟩
  refine (C10_swap_vector x y h1 g f a1 a2 hext hux huy hal).mono ?_
  rintro _ h2 ⟨b1, b2, b3⟩
  funext a
  by_cases hax : x.Cell a
  · obtain ⟨i, hi, rfl⟩ := hax
    rw [b1 i hi, hx i hi]
  · by_cases hay : y.Cell a
    · obtain ⟨i, hi, rfl⟩ := hay
      rw [b2 i hi, hy i hi]
    · rw [b3 a (by tauto), a3 a (by tauto)]

example : Ends (do swap1 x y; swap1 x y) (heap ℤ) fun _ h' => h' = heap ℤ :=
  C10_swap_vector_involution _ _ _ _ _ (holds bx) (holds by_) rfl (by view_facts)
    (by view_facts) (by view_facts)

/-- **C10** `swap_elements(x, y)`, rank 2. -/
theorem C10_swap_matrix (x y : Mat) (h : Heap α) (f g : Nat → Nat → α)
    (hx : x.Holds h f) (hy : y.Holds h g) (hr : x.rows = y.rows) (hc : x.cols = y.cols)
    (hux : x.Unique) (huy : y.Unique) (hal : x.Aligned y) :
    Ends (swap2 x y) h fun _ h' =>
      x.Holds h' g ∧ y.Holds h' f ∧ OnlyChanges (fun a => x.Cell a ∨ y.Cell a) h h' := by
  classical
  unfold swap2 forUp
  rw [forEach_nest]
  have mem : ∀ p : Nat × Nat, p ∈ ((List.range' 0 (y.cols - 0)).flatMap fun j =>
      (List.range' 0 (y.rows - 0)).map (Prod.mk j)) ↔ p.1 < y.cols ∧ p.2 < y.rows := by
    rintro ⟨j, i⟩
    simp only [List.mem_flatMap, List.mem_map, Prod.mk.injEq, mem_up]
    constructor
    · rintro ⟨_, ⟨_, h1⟩, _, ⟨_, h2⟩, rfl, rfl⟩; exact ⟨h1, h2⟩
    · rintro ⟨h1, h2⟩; exact ⟨j, ⟨by omega, h1⟩, i, ⟨by omega, h2⟩, rfl, rfl⟩
  have nd : ((List.range' 0 (y.cols - 0)).flatMap fun j =>
      (List.range' 0 (y.rows - 0)).map (Prod.mk j)).Nodup := by
    rw [List.nodup_flatMap]
    refine ⟨fun i _ => (List.nodup_range' (step := 1)).map (fun a b e => (Prod.mk.inj e).2), ?_⟩
    refine (List.nodup_range' (step := 1)).imp_of_mem ?_
    intro a b _ _ hab p h1 h2
    simp only [List.mem_map] at h1 h2
    obtain ⟨_, _, rfl⟩ := h1
    obtain ⟨_, _, e⟩ := h2
    exact hab (Prod.mk.inj e).1.symm
  refine (ends_forEach_own (fun p a => a = x.addr p.2 p.1 ∨ a = y.addr p.2 p.1)
    (fun p a => if a = y.addr p.2 p.1 then some (f p.2 p.1) else some (g p.2 p.1)) h ?_ ?_).mono ?_
  · refine nd.imp_of_mem ?_
    rintro ⟨j, i⟩ ⟨l, k⟩ h1 h2 hne a h3 h4
    obtain ⟨a1, a2⟩ := (mem _).1 h1
    obtain ⟨b1, b2⟩ := (mem _).1 h2
    simp only at a1 a2 b1 b2 h3 h4
    have key : ∀ {i' j' k' l' : Nat}, i' = k' ∧ j' = l' → (j', i') = (l', k') := by
      rintro _ _ _ _ ⟨rfl, rfl⟩; rfl
    rcases h3 with rfl | rfl <;> rcases h4 with e | e
    · exact hne (key (hux i j k l (by omega) (by omega) trivial (by omega) (by omega) trivial e))
    · exact hne (key (hal i j k l (by omega) (by omega) (by omega) (by omega) e))
    · exact hne (key (hal k l i j (by omega) (by omega) (by omega) (by omega) e.symm)).symm
    · exact hne (key (huy i j k l (by omega) (by omega) trivial (by omega) (by omega) trivial e))
  · rintro ⟨j, i⟩ hp h1 _ h2
    obtain ⟨a1, a2⟩ := (mem _).1 hp
    simp only at a1 a2 h2
    have ex := (h2 _ (Or.inl rfl)).trans (hx i j (by omega) (by omega) trivial)
    have ey := (h2 _ (Or.inr rfl)).trans (hy i j a2 a1 trivial)
    simp only [ends_bind, ends_mat_get, ends_mat_set]
    refine ⟨⟨by omega, by omega⟩, f i j, ex, ⟨a2, a1⟩, g i j, ey, ⟨by omega, by omega⟩, ⟨_, ex⟩,
      ⟨a2, a1⟩, ?_, ?_, ?_⟩
    · by_cases e : y.addr i j = x.addr i j
      · exact ⟨g i j, by simp [e]⟩
      · exact ⟨g i j, by simp [e, ey]⟩
    · rintro a (rfl | rfl)
      · by_cases e : x.addr i j = y.addr i j
        · simp [e]
        · simp [e]
      · simp
    · intro a ha
      simp only [not_or] at ha
      simp [ha.1, ha.2]
  · rintro _ h' ⟨h1, h2⟩
    refine ⟨fun i j hi hj _ => ?_, fun i j hi hj _ => ?_, fun a ha => h2 a ?_⟩
    · have := h1 (j, i) ((mem _).2 ⟨by simp; omega, by simp; omega⟩) (x.addr i j) (Or.inl rfl)
      rw [this]
      simp only
      split
      · next e =>
        have : h (x.addr i j) = h (y.addr i j) := by rw [e]
        rw [hx i j hi hj trivial, hy i j (by omega) (by omega) trivial] at this
        exact this
      · rfl
    · have := h1 (j, i) ((mem _).2 ⟨hj, hi⟩) (y.addr i j) (Or.inr rfl)
      simpa using this
    · rintro ⟨l, k⟩ hk
      obtain ⟨b1, b2⟩ := (mem _).1 hk
      simp only at b1 b2
      rintro (rfl | rfl)
      · exact ha (Or.inl ⟨k, l, by omega, by omega, trivial, rfl⟩)
      · exact ha (Or.inr ⟨k, l, by omega, by omega, trivial, rfl⟩)

example : Ends (swap2 A B) (heap ℤ) fun _ h' =>
    A.Holds h' (mvals ℤ B) ∧ B.Holds h' (mvals ℤ A) ∧
      OnlyChanges (fun a => A.Cell a ∨ B.Cell a) (heap ℤ) h' :=
  C10_swap_matrix _ _ _ _ _ (mholds bA) (mholds bB) rfl rfl (by view_facts) (by view_facts)
    (by view_facts)

/-- **C10** swapping twice restores the whole memory, rank 2. -/
theorem C10_swap_matrix_involution (x y : Mat) (h : Heap α) (f g : Nat → Nat → α)
    (hx : x.Holds h f) (hy : y.Holds h g) (hr : x.rows = y.rows) (hc : x.cols = y.cols)
    (hux : x.Unique) (huy : y.Unique) (hal : x.Aligned y) :
    Ends (do swap2 x y; swap2 x y) h fun _ h' => h' = h := by
  rw [ends_bind]
  refine (C10_swap_matrix x y h f g hx hy hr hc hux huy hal).mono ?_
  rintro _ h1 ⟨a1, a2, a3⟩
  refine (C10_swap_matrix x y h1 g f a1 a2 hr hc hux huy hal).mono ?_
  rintro _ h2 ⟨b1, b2, b3⟩
  funext a
  by_cases hax : x.Cell a
  · obtain ⟨i, j, hi, hj, _, rfl⟩ := hax
    rw [b1 i j hi hj trivial, hx i j hi hj trivial]
  · by_cases hay : y.Cell a
    · obtain ⟨i, j, hi, hj, _, rfl⟩ := hay
      rw [b2 i j hi hj trivial, hy i j hi hj trivial]
    · rw [b3 a (by tauto), a3 a (by tauto)]

example : Ends (do swap2 A B; swap2 A B) (heap ℤ) fun _ h' => h' = heap ℤ :=
  C10_swap_matrix_involution _ _ _ _ _ (mholds bA) (mholds bB) rfl rfl (by view_facts)
    (by view_facts) (by view_facts)

/-! ## C11 scale -/

/-- **C11** `scale(alpha, x)`, rank 1: every element is multiplied by `alpha` exactly once. -/
theorem C11_scale_vector [Mul α] (alpha : α) (x : Vec) (h : Heap α) (f : Nat → α)
    (hx : x.Holds h f) (hu : x.Unique) :
    Ends (scale1 alpha x) h fun _ h' => x.Becomes h h' (fun i => f i * alpha) := by
  refine ends_vec_cells _ h hu ?_
  intro i hi h1 _ he
  simp only [ends_bind, ends_vec_get, ends_vec_set]
  exact ⟨hi, f i, he.trans (hx i hi), hi, ⟨_, he.trans (hx i hi)⟩, by simp, fun a ha => by simp [ha]⟩

example : Ends (scale1 (5 : ℤ) y) (heap ℤ) fun _ h' =>
    y.Becomes (heap ℤ) h' (fun i => vals ℤ y i * 5) :=
  C11_scale_vector _ _ _ _ (holds by_) (by view_facts)

/-- **C11** `scale(alpha, A)`, rank 2. -/
theorem C11_scale_matrix [Mul α] (alpha : α) (A : Mat) (h : Heap α) (f : Nat → Nat → α)
    (hA : A.Holds h f) (hu : A.Unique) :
    Ends (scale2 alpha A) h fun _ h' => A.Becomes h h' (fun i j => f i j * alpha) := by
  refine ends_mat_full_cols _ h hu rfl rfl ?_
  intro i j hi hj h1 _ he
  have ha := he.trans (hA i j hi hj trivial)
  simp only [ends_bind, ends_mat_get, ends_mat_set]
  exact ⟨⟨hi, hj⟩, f i j, ha, ⟨hi, hj⟩, ⟨_, ha⟩, by simp, fun a ha => by simp [ha]⟩

example : Ends (scale2 (5 : ℤ) B) (heap ℤ) fun _ h' =>
    B.Becomes (heap ℤ) h' (fun i j => mvals ℤ B i j * 5) :=
  C11_scale_matrix _ _ _ _ (mholds bB) (by view_facts)

/-- **C11** scaling by `a` and then by `b` is scaling by `a * b`. -/
theorem C11_scale_scale [Semigroup α] (a b : α) (x : Vec) (h : Heap α) (f : Nat → α)
    (hx : x.Holds h f) (hu : x.Unique) :
    Ends (do scale1 a x; scale1 b x) h fun _ h' =>
      Ends (scale1 (a * b) x) h fun _ h'' => h' = h'' := by
  rw [ends_bind]
  refine (C11_scale_vector a x h f hx hu).mono ?_
  rintro _ h1 ⟨a1, a2⟩
  refine (C11_scale_vector b x h1 _ a1 hu).mono ?_
  rintro _ h2 ⟨b1, b2⟩
  refine (C11_scale_vector (a * b) x h f hx hu).mono ?_
  rintro _ h3 ⟨c1, c2⟩
  funext p
  by_cases hp : x.Cell p
  · obtain ⟨i, hi, rfl⟩ := hp
    rw [b1 i hi, c1 i hi]; simp only [mul_assoc]
  · rw [b2 p hp, a2 p hp, c2 p hp]

example : Ends (do scale1 (2 : ℤ) y; scale1 (3 : ℤ) y) (heap ℤ) fun _ h' =>
    Ends (scale1 ((2 : ℤ) * 3) y) (heap ℤ) fun _ h'' => h' = h'' :=
  C11_scale_scale _ _ _ _ _ (holds by_) (by view_facts)

/-! ## C12 add -/

/-- **C12** `add(x, y, z)`, rank 1; `z` may be `x`, `y` or both. -/
theorem C12_add_vector [Add α] (x y : VecV α) (z : Vec) (h : Heap α) (f g : Nat → α)
    (hx : x.Holds h f) (hy : y.Holds h g) (hz : z.Alloc h)
    (hex : z.ext ≤ x.ext) (hey : z.ext ≤ y.ext) (hu : z.Unique)
    (hax : x.toVec.Aligned z) (hay : y.toVec.Aligned z) :
    Ends (add1 x y z) h fun _ h' => z.Becomes h h' (fun i => f i + g i) := by
  refine ends_vec_cells _ h hu ?_
  intro i hi h1 hc he
  obtain ⟨v, hv, ev⟩ := hx i (by omega)
  obtain ⟨w, hw, ew⟩ := hy i (by omega)
  obtain ⟨u, hu'⟩ := hz i hi
  have hr := hax.read hc (i := i) (by omega) (fun _ => he)
  have hr' := hay.read hc (i := i) (by omega) (fun _ => he)
  simp only [ends_bind, ends_vecV_get, ends_vec_set]
  exact ⟨by omega, v, hr.trans hv, by omega, w, hr'.trans hw, hi, ⟨u, he.trans hu'⟩,
    by simp [ev, ew], fun a ha => by simp [ha]⟩

example : Ends (add1 (x.view : VecV ℤ) y.view z) (heap ℤ) fun _ h' =>
    z.Becomes (heap ℤ) h' (fun i => vals ℤ x i + vals ℤ y i) :=
  C12_add_vector _ _ _ _ _ _ (holdsV bx) (holdsV by_) (alloc bz) (by decide) (by decide)
    (by view_facts) (by view_facts) (by view_facts)

/-- in place: `z = x = y` doubles the vector -/
example : Ends (add1 (x.view : VecV ℤ) x.view x) (heap ℤ) fun _ h' =>
    x.Becomes (heap ℤ) h' (fun i => vals ℤ x i + vals ℤ x i) :=
  C12_add_vector _ _ _ _ _ _ (holdsV bx) (holdsV bx) (alloc bx) (by decide) (by decide)
    (by view_facts) (by view_facts) (by view_facts)

/-- **C12** `add(x, y, z)`, rank 2. -/
theorem C12_add_matrix [Add α] (x y : MatV α) (z : Mat) (h : Heap α) (f g : Nat → Nat → α)
    (hx : x.Holds h f) (hy : y.Holds h g) (hz : z.Alloc h)
    (hr : x.rows = z.rows) (hc : x.cols = z.cols) (hr' : z.rows ≤ y.rows) (hc' : z.cols ≤ y.cols)
    (hu : z.Unique) (hax : x.toMat.Aligned z) (hay : y.toMat.Aligned z) :
    Ends (add2 x y z) h fun _ h' => z.Becomes h h' (fun i j => f i j + g i j) := by
  refine ends_mat_full_cols _ h hu hr hc ?_
  intro i j hi hj h1 hch he
  obtain ⟨v, hv, ev⟩ := hx i j (by omega) (by omega) trivial
  obtain ⟨w, hw, ew⟩ := hy i j (by omega) (by omega) trivial
  obtain ⟨u, hu'⟩ := hz i j hi hj trivial
  have hrd := hax.read hch (i := i) (j := j) (by omega) (by omega) (fun _ _ => he)
  have hrd' := hay.read hch (i := i) (j := j) (by omega) (by omega) (fun _ _ => he)
  simp only [ends_bind, ends_matV_get, ends_mat_set]
  exact ⟨⟨by omega, by omega⟩, v, hrd.trans hv, ⟨by omega, by omega⟩, w, hrd'.trans hw, ⟨hi, hj⟩,
    ⟨u, he.trans hu'⟩, by simp [ev, ew], fun a ha => by simp [ha]⟩

example : Ends (add2 (A.view : MatV ℤ) B.view A) (heap ℤ) fun _ h' =>
    A.Becomes (heap ℤ) h' (fun i j => mvals ℤ A i j + mvals ℤ B i j) :=
  C12_add_matrix _ _ _ _ _ _ (mholdsV bA) (mholdsV bB) (malloc bA) rfl rfl (by decide)
    (by decide) (by view_facts) (by view_facts) (by view_facts)

end StdBLAS

import Mathlib.Order.WellFounded
import Verif.Lemmas.Kokkos
import Verif.Lemmas.KokkosProducts
import Verif.Props.KokkosWitness

/-!
# Property C48: the parallel loops of the Kokkos backend: schedules, copy, swap

The first three theorems are about every `parallel_for`.  Then `copy` (between different
layouts) and `swap_elements`.
-/

namespace StdBLAS
open Witness
variable {α : Type}

/-! ## Every parallel loop -/

/-- **C48** No schedule of a `parallel_for` goes on forever. -/
theorem C48_every_schedule_ends (n : Nat) (c : Nat → Pool α) :
    ¬ ∀ k, Step n (c k) (c (k + 1)) :=
  fun hs => (wellFounded_iff_isEmpty_descending_chain.1 (step_wf n)).false ⟨c, hs⟩

/-- **C48** A schedule stops only when all iterations have ended or one of them is about to
fail: there is no deadlock. -/
theorem C48_no_deadlock (n : Nat) (c : Pool α) (stuck : ∀ c', ¬ Step n c c') :
    (∀ i, i < n → (c.todo i).Ended) ∨ ∃ i e, i < n ∧ (c.todo i).FailsIn c.mem e := by
  by_contra hn
  simp only [not_or, not_forall, not_exists, not_and] at hn
  obtain ⟨⟨i, hi, h1⟩, h2⟩ := hn
  cases e : c.todo i with
  | done b => rw [e] at h1; exact h1 trivial
  | fail er => exact h2 i er hi (by rw [e]; rfl)
  | load a k =>
    cases hv : c.mem a with
    | none => exact h2 i .ub hi (by rw [e]; exact ⟨hv, rfl⟩)
    | some v => exact stuck _ (Step.load hi e hv)
  | store a v k =>
    cases hv : c.mem a with
    | none => exact h2 i .ub hi (by rw [e]; exact ⟨hv, rfl⟩)
    | some w => exact stuck _ (Step.store hi e hv)

/-- **C48** Schedules do not matter.  Let each iteration, run alone, end without error, reading
only the cells `R i` and writing only the cells `W i`, and let no iteration write what another
one reads or writes.  Then all interleavings have the same outcome, which is that of the
sequential loop. -/
theorem C48_schedules_do_not_matter (n : Nat) (body : Nat → Task α Unit) (h : Heap α)
    (R W : Nat → Nat → Prop)
    (alone : ∀ i, i < n → (body i).Safe (R i) (W i) h fun _ _ => True)
    (apart : ∀ i j, i < n → j < n → i ≠ j → ∀ a, W i a → ¬ R j a ∧ ¬ W j a) :
    ∃ h', (∀ r, parFor n body h r ↔ r = .ok ((), h')) ∧
      forUp 0 n (fun i => (body i).run) h = .ok ((), h') := by
  classical
  -- the memory in which iteration `i` ends when it runs alone
  have ex : ∀ i, ∃ g, i < n → (body i).Safe (R i) (W i) h fun _ g' => g' = g := by
    intro i
    by_cases hi : i < n
    · obtain ⟨_, g, e, -⟩ := (alone i hi).ends
      refine ⟨g, fun _ => ?_⟩
      have := (alone i hi).with_ends (Q' := fun _ g' => g' = g) ⟨_, _, e, rfl⟩
      exact this
    · exact ⟨h, fun q => absurd q hi⟩
  choose g hg using ex
  let h' : Heap α := fun a => if q : ∃ i, i < n ∧ W i a then g q.choose a else h a
  have hW : ∀ i, i < n → ∀ a, W i a → h' a = g i a := by
    intro i hi a ha
    have q : ∃ i, i < n ∧ W i a := ⟨i, hi, ha⟩
    simp only [h', dif_pos q]
    have e : q.choose = i := by
      by_contra hne
      exact (apart _ _ q.choose_spec.1 hi hne a q.choose_spec.2).2 ha
    rw [e]
  have hO : ∀ a, (¬ ∃ i, i < n ∧ W i a) → h' a = h a := fun a q => by simp only [h', dif_neg q]
  have safe : ∀ i, i < n → (body i).Safe (R i) (W i) h fun _ g' => ∀ a, W i a → g' a = g i a :=
    fun i hi => (hg i hi).post fun _ g' e a _ => by rw [e]
  refine ⟨h', ?_, ?_⟩
  · have hs := parFor_owned (h := h) (body := body) W (fun i g' => ∀ a, W i a → g' a = g i a)
      (fun i j hi hj hij a hi' => (apart i j hi hj hij a hi').2)
      (fun i _ g1 g2 e q a ha => by rw [← e a ha, q a ha])
      (fun i hi => (safe i hi).mono_reads (fun a ha j hj hne hw => (apart j i hj hi hne a hw).1 ha))
    have key : ∀ b h'', ((∀ i, i < n → ∀ a, W i a → h'' a = g i a) ∧
        OnlyChanges (fun a => ∃ i, i < n ∧ W i a) h h'') →
        (Except.ok (b, h'') : Except Err (Unit × Heap α)) = .ok ((), h') := by
      rintro ⟨⟩ h'' ⟨q1, q2⟩
      congr 2
      funext a
      by_cases q : ∃ i, i < n ∧ W i a
      · obtain ⟨i, hi, ha⟩ := q
        rw [q1 i hi a ha, hW i hi a ha]
      · rw [q2 a q, hO a q]
    intro r
    constructor
    · intro hr
      obtain ⟨b, h'', rfl, q⟩ := hs.2 r hr
      exact key b h'' q
    · rintro rfl
      obtain ⟨r, hr⟩ := hs.1
      obtain ⟨b, h'', rfl, q⟩ := hs.2 r hr
      rw [← key b h'' q]
      exact hr
  · have := ends_forUp_inv (lo := 0) (hi := n) (body := fun i => (body i).run) (h := h)
      (fun k g' => (∀ i, i < k → ∀ a, W i a → g' a = g i a) ∧
        OnlyChanges (fun a => ∃ i, i < k ∧ W i a) h g') (Nat.zero_le n) ?_
      ⟨fun i hi => absurd hi (Nat.not_lt_zero i), fun _ _ => rfl⟩
    · obtain ⟨b, h'', e, q1, q2⟩ := this
      rw [e]
      congr 2
      funext a
      by_cases q : ∃ i, i < n ∧ W i a
      · obtain ⟨i, hi, ha⟩ := q
        rw [q1 i hi a ha, hW i hi a ha]
      · rw [q2 a q, hO a q]
    · rintro k - hk g' ⟨q1, q2⟩
      have same : ∀ a, R k a ∨ W k a → h a = g' a := by
        intro a ha
        refine (q2 a ?_).symm
        rintro ⟨i, hi, hw⟩
        have := apart i k (by omega) hk (by omega) a hw
        rcases ha with ha | ha
        · exact this.1 ha
        · exact this.2 ha
      have := ((safe k hk).congr (h' := g') (fun _ g1 g2 e q a ha => by rw [← e a ha, q a ha])
        (fun a ha => same a (Or.inl ha)) (fun a ha => same a (Or.inr ha))).frame.ends
      refine this.mono ?_
      rintro _ g2 ⟨p1, p2⟩
      refine ⟨fun i hi a ha => ?_, fun a ha => ?_⟩
      · by_cases e : i = k
        · subst e; exact p1 a ha
        · rw [p2 a, q1 i (by omega) a ha]
          exact (apart i k (by omega) hk e a ha).2
      · rw [p2 a, q2 a]
        · rintro ⟨i, hi, hw⟩
          exact ha ⟨i, by omega, hw⟩
        · intro hw
          exact ha ⟨k, by omega, hw⟩

/-- a loop in which iteration `i` reads two cells and writes a third one -/
example : ∃ h', (∀ r, parFor 10 (fun i => .load i fun a => .load (i + 10) fun b =>
      .store (i + 20) (a * b) (.done ())) (heap ℤ) r ↔ r = .ok ((), h')) ∧
    forUp 0 10 (fun i => Task.run (.load i fun a => .load (i + 10) fun b =>
      .store (i + 20) (a * b) (.done ()))) (heap ℤ) = .ok ((), h') := by
  refine C48_schedules_do_not_matter 10 _ _ (fun i a => a = i ∨ a = i + 10)
    (fun i a => a = i + 20) ?_ ?_
  · intro i hi
    exact ⟨Or.inl rfl, _, heap_lt (by omega), Or.inr rfl, _, heap_lt (by omega),
      ⟨rfl, _, heap_lt (by omega)⟩, trivial⟩
  · rintro i j hi hj hij a rfl
    omega

/-- What the hypothesis excludes: two iterations that add to the same cell are a data race. -/
theorem C48_shared_accumulator_races :
    parFor 2 (fun _ => .load 0 fun s => .store 0 (s + 1) (.done ())) (heap ℤ) (.error .ub) := by
  refine ⟨⟨Function.update (fun _ => .load 0 fun s => .store 0 (s + 1) (.done ())) 0
    (.store 0 (0 - 7 + 1) (.done ())), heap ℤ⟩, ?_, Or.inr (Or.inr ⟨?_, rfl⟩)⟩
  · apply Relation.ReflTransGen.single
    refine Step.load (k := fun s : ℤ => .store 0 (s + 1) (.done ())) (i := 0) (a := 0)
      (v := (0 - 7 : ℤ)) Nat.zero_lt_two rfl ?_
    rw [heap_lt (by omega)]
    norm_num
  · exact ⟨0, 1, 0, by decide, by decide, by decide, rfl, rfl⟩

/-! ## copy and swap_elements -/

/-- **C48** `copy(exec, x, y)`, rank 2, different layouts. -/
theorem C48_copy_matrix (x y : KMat) (h : Heap α) (f : Nat → Nat → α) (hx : x.toMat.Holds h f)
    (hy : y.toMat.Alloc h) (hxt : x.transposed = false) (hyt : y.transposed = false)
    (hr : x.rows = y.rows) (hc : x.cols = y.cols) (hu : y.toMat.Unique)
    (hal : x.toMat.Aligned y.toMat) :
    Surely (kkCopy2 x y) h fun _ h' => y.toMat.Becomes h h' f := by
  unfold kkCopy2
  rw [KMat.view_eq hxt, KMat.view_eq hyt]
  refine visit_rows f hu hr hc fun i j hi hj => ?_
  obtain ⟨v, hv⟩ := hy i j hi hj trivial
  have hi' : i < x.rows := by omega
  have hj' : j < x.cols := by omega
  rw [Task.safe_bind, hx.safe_rd_aligned hal hi' hj', Mat.safe_wr_own hi hj hv]
  simp

example : Surely (kkCopy2 kA kB) (heap ℤ) fun _ h' => B.Becomes (heap ℤ) h' (mvals ℤ A) :=
  C48_copy_matrix kA kB _ _ (mholds bA) (malloc bB) rfl rfl rfl rfl (by kview_facts)
    (by kview_facts)

/-- **C48** `swap_elements(exec, x, y)`, rank 1. -/
theorem C48_swap_vector (x y : KVec) (h : Heap α) (f g : Nat → α) (hx : x.mdspan.Holds h f)
    (hy : y.mdspan.Holds h g) (hxs : x.stride = 1) (hys : y.stride = 1) (hext : x.ext = y.ext)
    (hal : x.mdspan.Aligned y.mdspan) :
    Surely (kkSwap1 x y) h fun _ h' => x.mdspan.Holds h' g ∧ y.mdspan.Holds h' f ∧
      OnlyChanges (fun a => x.mdspan.Cell a ∨ y.mdspan.Cell a) h h' := by
  unfold kkSwap1
  rw [KVec.view_eq hxs, KVec.view_eq hys]
  have hux : x.mdspan.Unique := by
    intro i k hi hk e; simp only [KVec.mdspan, hxs] at e; omega
  have huy : y.mdspan.Unique := by
    intro i k hi hk e; simp only [KVec.mdspan, hys] at e; omega
  have hle : ∀ i, i < x.mdspan.ext → i < y.mdspan.ext := fun i hi => by
    have : i < x.ext := hi
    show i < y.ext
    omega
  refine surely_require_bind hext ((parFor_owned
    (fun i a => a = x.mdspan.addr i ∨ a = y.mdspan.addr i)
    (fun i g' => g' (x.mdspan.addr i) = some (g i) ∧ g' (y.mdspan.addr i) = some (f i))
    ?_ ?_ ?_).mono ?_)
  · rintro i j hi hj hne a (rfl | rfl) (e | e)
    · exact hne (hux i j hi hj e)
    · exact hne (hal i j hi (hle j hj) e)
    · exact hne (hal j i hj (hle i hi) e.symm).symm
    · exact hne (huy i j (hle i hi) (hle j hj) e)
  · rintro i _ g1 g2 e ⟨q1, q2⟩
    exact ⟨by rw [← e _ (Or.inl rfl), q1], by rw [← e _ (Or.inr rfl), q2]⟩
  · intro i hi
    have hi' := hle i hi
    have ox : ∀ j, j < x.mdspan.ext → j ≠ i →
        ¬ (x.mdspan.addr i = x.mdspan.addr j ∨ x.mdspan.addr i = y.mdspan.addr j) := by
      rintro j hj hne (e | e)
      · exact hne (hux i j hi hj e).symm
      · exact hne (hal i j hi (hle j hj) e).symm
    have oy : ∀ j, j < x.mdspan.ext → j ≠ i →
        ¬ (y.mdspan.addr i = x.mdspan.addr j ∨ y.mdspan.addr i = y.mdspan.addr j) := by
      rintro j hj hne (e | e)
      · exact hne (hal j i hj hi' e.symm)
      · exact hne (huy i j hi' (hle j hj) e).symm
    rw [Task.safe_bind, Vec.safe_rd hi ox (hx i hi), Task.safe_bind,
      Vec.safe_rd hi' oy (hy i hi'), Task.safe_bind,
      Vec.safe_wr hi (Or.inl rfl) (hx i hi)]
    by_cases e : x.mdspan.addr i = y.mdspan.addr i
    · have efg : f i = g i := by
        have := hx i hi
        rw [e, hy i hi'] at this
        exact (Option.some.inj this).symm
      rw [Vec.safe_wr (w := g i) hi' (Or.inr rfl) (by rw [e, Function.update_self])]
      rw [e, Function.update_self, efg]
      exact ⟨rfl, rfl⟩
    · rw [Vec.safe_wr (w := g i) hi' (Or.inr rfl)
        (by rw [Function.update_of_ne (Ne.symm e)]; exact hy i hi')]
      rw [Function.update_of_ne e, Function.update_self, Function.update_self]
      exact ⟨rfl, rfl⟩
  · rintro _ h' ⟨q1, q2⟩
    refine ⟨fun i hi => (q1 i hi).1, fun i hi => ?_, q2.mono ?_⟩
    · have : i < x.mdspan.ext := by
        have : i < y.ext := hi
        show i < x.ext
        omega
      exact (q1 i this).2
    · rintro a ⟨i, hi, (rfl | rfl)⟩
      · exact Or.inl ⟨i, hi, rfl⟩
      · exact Or.inr ⟨i, hle i hi, rfl⟩

example : Surely (kkSwap1 kx ky) (heap ℤ) fun _ h' =>
    kx.mdspan.Holds h' (vals ℤ ky.mdspan) ∧ ky.mdspan.Holds h' (vals ℤ kx.mdspan) ∧
      OnlyChanges (fun a => kx.mdspan.Cell a ∨ ky.mdspan.Cell a) (heap ℤ) h' :=
  C48_swap_vector kx ky _ _ _ (holds bkx) (holds bky) rfl rfl rfl (by kview_facts)

/-- **C48** `swap_elements(exec, x, y)`, rank 2. -/
theorem C48_swap_matrix (x y : KMat) (h : Heap α) (f g : Nat → Nat → α)
    (hx : x.toMat.Holds h f) (hy : y.toMat.Holds h g) (hxt : x.transposed = false)
    (hyt : y.transposed = false) (hr : x.rows = y.rows) (hc : x.cols = y.cols)
    (hux : x.toMat.Unique) (huy : y.toMat.Unique) (hal : x.toMat.Aligned y.toMat) :
    Surely (kkSwap2 x y) h fun _ h' => x.toMat.Holds h' g ∧ y.toMat.Holds h' f ∧
      OnlyChanges (fun a => x.toMat.Cell a ∨ y.toMat.Cell a) h h' := by
  unfold kkSwap2
  rw [KMat.view_eq hxt, KMat.view_eq hyt]
  have own : ∀ i j k l, i < x.rows → j < x.cols → k < x.rows → l < x.cols →
      ∀ a, (a = x.addr i j ∨ a = y.addr i j) → (a = x.addr k l ∨ a = y.addr k l) →
      i = k ∧ j = l := by
    rintro i j k l hi hj hk hl a (rfl | rfl) (e | e)
    · exact hux i j k l hi hj trivial hk hl trivial e
    · exact hal i j k l hi hj (by omega) (by omega) e
    · obtain ⟨q1, q2⟩ := hal k l i j hk hl (by omega) (by omega) e.symm
      exact ⟨q1.symm, q2.symm⟩
    · exact huy i j k l (by omega) (by omega) trivial (by omega) (by omega) trivial e
  refine surely_require_bind hr (surely_require_bind hc ((parFor_owned
    (fun i a => ∃ j, j < x.cols ∧ (a = x.addr i j ∨ a = y.addr i j))
    (fun i g' => ∀ j, j < x.cols →
      g' (x.addr i j) = some (g i j) ∧ g' (y.addr i j) = some (f i j))
    ?_ ?_ ?_).mono ?_))
  · rintro i k hi hk hne a ⟨j, hj, e⟩ ⟨l, hl, e'⟩
    exact hne (own i j k l hi hj hk hl a e e').1
  · rintro i _ g1 g2 e q j hj
    exact ⟨by rw [← e _ ⟨j, hj, Or.inl rfl⟩, (q j hj).1],
      by rw [← e _ ⟨j, hj, Or.inr rfl⟩, (q j hj).2]⟩
  · intro i hi
    have rd : ∀ j, j < x.cols → ∀ a, (a = x.addr i j ∨ a = y.addr i j) →
        ∀ k, k < x.rows → k ≠ i → ¬ ∃ l, l < x.cols ∧ (a = x.addr k l ∨ a = y.addr k l) := by
      rintro j hj a ha k hk hne ⟨l, hl, e⟩
      exact hne (own i j k l hi hj hk hl a ha e).1.symm
    refine (Task.safe_forEach_inv (fun pre g' => ∀ j, j < x.cols →
      (j ∈ pre → g' (x.addr i j) = some (g i j) ∧ g' (y.addr i j) = some (f i j)) ∧
      (j ∉ pre → g' (x.addr i j) = some (f i j) ∧ g' (y.addr i j) = some (g i j))) ?_ ?_).post ?_
    · intro pre j post e g' inv
      have hj : j < x.cols := by
        have : j ∈ List.range' 0 (x.cols - 0) := by rw [e]; simp
        exact (mem_up.1 this).2
      have hjp : j ∉ pre := by
        have := List.nodup_range' (s := 0) (n := x.cols - 0) (step := 1)
        rw [e] at this
        intro q
        exact (List.nodup_append.1 this).2.2 j q j (by simp) rfl
      have hiy : i < y.rows := by omega
      have hjy : j < y.cols := by omega
      obtain ⟨vx, vy⟩ := (inv j hj).2 hjp
      rw [Task.safe_bind, Mat.safe_rd hi hj (rd j hj _ (Or.inl rfl)) vx, Task.safe_bind,
        Mat.safe_rd hiy hjy (rd j hj _ (Or.inr rfl)) vy, Task.safe_bind,
        Mat.safe_wr hi hj ⟨j, hj, Or.inl rfl⟩ vx]
      have vy' : ∃ w, Function.update g' (x.addr i j) (some (g i j)) (y.addr i j) = some w := by
        by_cases e : y.addr i j = x.addr i j
        · exact ⟨_, by rw [e, Function.update_self]⟩
        · exact ⟨_, by rw [Function.update_of_ne e, vy]⟩
      obtain ⟨w, vy'⟩ := vy'
      rw [Mat.safe_wr hiy hjy ⟨j, hj, Or.inr rfl⟩ vy']
      intro l hl
      by_cases elj : l = j
      · subst elj
        refine ⟨fun _ => ⟨?_, by rw [Function.update_self]⟩, fun q => by simp at q⟩
        by_cases e : x.addr i l = y.addr i l
        · rw [e, Function.update_self]
          rw [e, vy] at vx
          exact vx.symm
        · rw [Function.update_of_ne e, Function.update_self]
      · have n1 : x.addr i l ≠ x.addr i j := fun e =>
          elj (own i l i j hi hl hi hj _ (Or.inl rfl) (Or.inl e)).2
        have n2 : x.addr i l ≠ y.addr i j := fun e =>
          elj (own i l i j hi hl hi hj _ (Or.inl rfl) (Or.inr e)).2
        have n3 : y.addr i l ≠ x.addr i j := fun e =>
          elj (own i l i j hi hl hi hj _ (Or.inr rfl) (Or.inl e)).2
        have n4 : y.addr i l ≠ y.addr i j := fun e =>
          elj (own i l i j hi hl hi hj _ (Or.inr rfl) (Or.inr e)).2
        rw [Function.update_of_ne n2, Function.update_of_ne n1, Function.update_of_ne n4,
          Function.update_of_ne n3]
        have hm : l ∈ pre ++ [j] ↔ l ∈ pre := by simp [elj]
        rw [hm]
        exact inv l hl
    · intro j hj
      exact ⟨fun q => by simp at q, fun _ => ⟨hx i j hi hj trivial,
        hy i j (by omega) (by omega) trivial⟩⟩
    · intro _ g' inv j hj
      exact (inv j hj).1 (mem_up.2 ⟨by omega, hj⟩)
  · rintro _ h' ⟨q1, q2⟩
    refine ⟨fun i j hi hj _ => (q1 i hi j hj).1,
      fun i j hi hj _ => (q1 i (by show i < x.rows; omega) j (by omega)).2, q2.mono ?_⟩
    rintro a ⟨i, hi, j, hj, (rfl | rfl)⟩
    · exact Or.inl ⟨i, j, hi, hj, trivial, rfl⟩
    · have hi' : i < x.rows := hi
      exact Or.inr ⟨i, j, by omega, by omega, trivial, rfl⟩

example : Surely (kkSwap2 kA kB) (heap ℤ) fun _ h' =>
    A.Holds h' (mvals ℤ B) ∧ B.Holds h' (mvals ℤ A) ∧
      OnlyChanges (fun a => A.Cell a ∨ B.Cell a) (heap ℤ) h' :=
  C48_swap_matrix kA kB _ _ _ (mholds bA) (mholds bB) rfl rfl rfl rfl (by kview_facts)
    (by kview_facts) (by kview_facts)

end StdBLAS

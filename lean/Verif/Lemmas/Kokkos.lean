import Verif.Lemmas.Parallel
import Verif.Lemmas.Blas1
import Verif.Lemmas.State
import Verif.Model.Kokkos
import Verif.Spec.LinAlg

/-! # Lemmas about the Kokkos backend -/

namespace StdBLAS
open Finset
variable {α β : Type} {h g : Heap α} {R W P : Nat → Prop}

theorem KVec.view_eq {x : KVec} (hx : x.stride = 1) : x.view = x.mdspan := by
  unfold KVec.view KVec.mdspan
  simp [hx]

theorem KMat.view_eq {A : KMat} (hA : A.transposed = false) : A.view = A.toMat := by
  unfold KMat.view
  simp [hA]

/-! ## Checks -/

theorem surely_require {c : Prop} [Decidable c] (hc : c) {Q : Unit → Heap α → Prop}
    (q : Q () h) : Surely (require c) h Q := by
  unfold require
  rw [if_pos hc]
  exact surely_pure.2 q

theorem surely_require_bind {c : Prop} [Decidable c] (hc : c) {k : Unit → Sched α β}
    {Q : β → Heap α → Prop} (q : Surely (k ()) h Q) : Surely (require c >>= k) h Q :=
  surely_bind (surely_require hc q)

theorem fails_require_bind {c : Prop} [Decidable c] (hc : ¬ c) (k : Unit → Sched α β) :
    SurelyFails (require c >>= k) h .exn := by
  unfold require
  rw [if_neg hc]
  exact surelyFails_throw.bind k

theorem sched_pure_bind (b : β) {γ : Type} (k : β → Sched α γ) : (pure b >>= k) = k b := by
  funext h r
  refine propext ⟨?_, fun hr => Or.inr ⟨b, h, rfl, hr⟩⟩
  rintro (⟨e, he, rfl⟩ | ⟨b', h', hb, hr⟩)
  · cases he
  · cases hb; exact hr

theorem sched_bind_assoc {γ δ : Type} (p : Sched α β) (f : β → Sched α γ) (k : γ → Sched α δ) :
    (p >>= f >>= k) = p >>= fun b => f b >>= k := by
  funext h r
  refine propext ⟨?_, ?_⟩
  · rintro (⟨e, (⟨e', he, e2⟩ | ⟨b, h', hb, hr⟩), rfl⟩ | ⟨c, h', (⟨e', he, e2⟩ | ⟨b, h'', hb, hr⟩), hk⟩)
    · cases e2; exact Or.inl ⟨e, he, rfl⟩
    · exact Or.inr ⟨b, h', hb, Or.inl ⟨e, hr, rfl⟩⟩
    · cases e2
    · exact Or.inr ⟨b, h'', hb, Or.inr ⟨c, h', hr, hk⟩⟩
  · rintro (⟨e, he, rfl⟩ | ⟨b, h', hb, (⟨e, hr, rfl⟩ | ⟨c, h'', hr, hk⟩)⟩)
    · exact Or.inl ⟨e, Or.inl ⟨e, he, rfl⟩, rfl⟩
    · exact Or.inl ⟨e, Or.inr ⟨b, h', hb, hr⟩, rfl⟩
    · exact Or.inr ⟨c, h'', Or.inr ⟨b, h', hb, hr⟩, hk⟩

/-! ## Reading inputs -/

/-! An iteration that works on cell `c` of the set `P` may read `c` and the cells outside
`P`, and may write `c`. -/

theorem Vec.Holds.safe_rd {x : Vec} {f : Nat → α} (hx : x.Holds h f) (hap : Apart x.Cell P)
    (hg : OnlyChanges P h g) {i c : Nat} (hi : i < x.ext) {Q : α → Heap α → Prop} :
    (x.rd i).Safe (fun a => a = c ∨ ¬ P a) (fun a => a = c) g Q ↔ Q (f i) g := by
  have hn : ¬ P (x.addr i) := hap _ ⟨i, hi, rfl⟩
  exact Vec.safe_rd hi (Or.inr hn) (by rw [hg _ hn]; exact hx i hi)

theorem Mat.HoldsOn.safe_rd {A : Mat} {r : Region} {f : Nat → Nat → α} (hA : A.HoldsOn h r f)
    (hap : Apart (A.CellOn r) P) (hg : OnlyChanges P h g) {i j c : Nat}
    (hi : i < A.rows) (hj : j < A.cols) (hr : r i j) {Q : α → Heap α → Prop} :
    (A.rd i j).Safe (fun a => a = c ∨ ¬ P a) (fun a => a = c) g Q ↔ Q (f i j) g := by
  have hn : ¬ P (A.addr i j) := hap _ ⟨i, j, hi, hj, hr, rfl⟩
  exact Mat.safe_rd hi hj (Or.inr hn) (by rw [hg _ hn]; exact hA i j hi hj hr)

theorem Vec.safe_wr_own {x : Vec} {i : Nat} {v w : α} {Q : Unit → Heap α → Prop}
    (hi : i < x.ext) (hv : g (x.addr i) = some w) :
    (x.wr i v).Safe R (fun a => a = x.addr i) g Q ↔
      Q () (Function.update g (x.addr i) (some v)) := Vec.safe_wr hi rfl hv

theorem Mat.safe_wr_own {C : Mat} {i j : Nat} {v w : α} {Q : Unit → Heap α → Prop}
    (hi : i < C.rows) (hj : j < C.cols) (hv : g (C.addr i j) = some w) :
    (C.wr i j v).Safe R (fun a => a = C.addr i j) g Q ↔
      Q () (Function.update g (C.addr i j) (some v)) := Mat.safe_wr hi hj rfl hv

theorem Mat.safe_incr [Add α] {C : Mat} {i j : Nat} {v s : α} {Q : Unit → Heap α → Prop}
    (hi : i < C.rows) (hj : j < C.cols) (hv : g (C.addr i j) = some s) :
    (C.incr i j v).Safe (fun a => a = C.addr i j ∨ ¬ P a) (fun a => a = C.addr i j) g Q ↔
      Q () (Function.update g (C.addr i j) (some (s + v))) := by
  unfold Mat.incr
  rw [Task.safe_bind, Mat.safe_rd hi hj (Or.inl rfl) hv, Mat.safe_wr_own hi hj hv]

theorem onlyChanges_update {a : Nat} {v : α} (ha : P a) :
    OnlyChanges P h (Function.update h a (some v)) := by
  intro b hb
  rw [Function.update_of_ne]
  rintro rfl
  exact hb ha

/-! ## Visitors -/

theorem visit_rows {C : Mat} {action : Nat → Nat → Task α Unit} (f : Nat → Nat → α)
    (hu : C.Unique) {r c : Nat} (hr : r = C.rows) (hc : c = C.cols)
    (safe : ∀ i j, i < C.rows → j < C.cols → (action i j).Safe
      (fun a => a = C.addr i j ∨ ¬ C.Cell a) (fun a => a = C.addr i j) h
      (fun _ g => g (C.addr i j) = some (f i j))) :
    Surely (parFor r fun i => Task.forUp 0 c fun j => action i j) h
      (fun _ h' => C.Becomes h h' f) := by
  subst hr hc
  refine (parFor_cells (m := fun _ => List.range' 0 (C.cols - 0)) (body := action)
    C.addr f (fun _ _ => List.nodup_range' (step := 1)) ?_ ?_).mono ?_
  · intro i hi j hj k hk l hl e
    exact hu i j k l hi (mem_up.1 hj).2 trivial hk (mem_up.1 hl).2 trivial e
  · intro i hi j hj
    refine (safe i j hi (mem_up.1 hj).2).mono ?_ (fun _ h => h) (fun _ _ h => h)
    rintro a (rfl | ha)
    · exact Or.inl rfl
    · exact Or.inr fun k hk l hl e => ha ⟨k, l, hk, (mem_up.1 hl).2, trivial, e⟩
  · rintro _ h' ⟨h1, h2⟩
    refine ⟨fun i j hi hj _ => h1 i hi j (mem_up.2 ⟨by omega, hj⟩), h2.mono ?_⟩
    rintro a ⟨i, hi, j, hj, e⟩
    exact ⟨i, j, hi, (mem_up.1 hj).2, trivial, e⟩

theorem visit_cols {C : Mat} {action : Nat → Nat → Task α Unit} (f : Nat → Nat → α)
    (hu : C.Unique) {r c : Nat} (hr : r = C.rows) (hc : c = C.cols)
    (safe : ∀ i j, i < C.rows → j < C.cols → (action i j).Safe
      (fun a => a = C.addr i j ∨ ¬ C.Cell a) (fun a => a = C.addr i j) h
      (fun _ g => g (C.addr i j) = some (f i j))) :
    Surely (parFor c fun j => Task.forUp 0 r fun i => action i j) h
      (fun _ h' => C.Becomes h h' f) := by
  subst hr hc
  refine (parFor_cells (m := fun _ => List.range' 0 (C.rows - 0)) (body := fun j i => action i j)
    (fun j i => C.addr i j) (fun j i => f i j) (fun _ _ => List.nodup_range' (step := 1)) ?_ ?_).mono ?_
  · intro j hj i hi l hl k hk e
    exact (hu i j k l (mem_up.1 hi).2 hj trivial (mem_up.1 hk).2 hl trivial e).symm
  · intro j hj i hi
    refine (safe i j (mem_up.1 hi).2 hj).mono ?_ (fun _ h => h) (fun _ _ h => h)
    rintro a (rfl | ha)
    · exact Or.inl rfl
    · exact Or.inr fun l hl k hk e => ha ⟨k, l, (mem_up.1 hk).2, hl, trivial, e⟩
  · rintro _ h' ⟨h1, h2⟩
    refine ⟨fun i j hi hj _ => h1 j hj i (mem_up.2 ⟨by omega, hi⟩), h2.mono ?_⟩
    rintro a ⟨j, hj, i, hi, e⟩
    exact ⟨i, j, (mem_up.1 hi).2, hj, trivial, e⟩

theorem visit_full {C : Mat} {action : Nat → Nat → Task α Unit} (f : Nat → Nat → α)
    (hu : C.Unique)
    (safe : ∀ i j, i < C.rows → j < C.cols → (action i j).Safe
      (fun a => a = C.addr i j ∨ ¬ C.Cell a) (fun a => a = C.addr i j) h
      (fun _ g => g (C.addr i j) = some (f i j))) :
    Surely (forEachMatrixElement C action) h (fun _ h' => C.Becomes h h' f) := by
  unfold forEachMatrixElement
  split
  · exact visit_rows f hu rfl rfl safe
  · exact visit_cols f hu rfl rfl safe

theorem visit_triangle {C : Mat} {t : Triangle} {action : Nat → Nat → Task α Unit}
    (f : Nat → Nat → α) (hu : C.UniqueOn t.region) (hsq : C.rows = C.cols)
    (safe : ∀ i j, i < C.rows → j < C.cols → t.region i j → (action i j).Safe
      (fun a => a = C.addr i j ∨ ¬ C.CellOn t.region a) (fun a => a = C.addr i j) h
      (fun _ g => g (C.addr i j) = some (f i j))) :
    Surely (forEachTriangleElement C t action) h (fun _ h' => C.BecomesOn h h' t.region f) := by
  cases t with
  | upper =>
    refine (parFor_cells (m := fun j => List.range' 0 (j + 1 - 0)) (body := fun j i => action i j)
      (fun j i => C.addr i j) (fun j i => f i j) (fun _ _ => List.nodup_range' (step := 1))
      ?_ ?_).mono ?_
    · intro j hj i hi l hl k hk e
      have hi := (mem_up.1 hi).2
      have hk := (mem_up.1 hk).2
      exact (hu i j k l (by omega) hj (Nat.le_of_lt_succ hi) (by omega) hl
        (Nat.le_of_lt_succ hk) e).symm
    · intro j hj i hi
      have hi := (mem_up.1 hi).2
      refine (safe i j (by omega) hj (Nat.le_of_lt_succ hi)).mono ?_ (fun _ h => h)
        (fun _ _ h => h)
      rintro a (rfl | ha)
      · exact Or.inl rfl
      · refine Or.inr fun l hl k hk e => ?_
        have hk := (mem_up.1 hk).2
        exact ha ⟨k, l, by omega, hl, Nat.le_of_lt_succ hk, e⟩
    · rintro _ h' ⟨h1, h2⟩
      refine ⟨fun i j hi hj hr => h1 j hj i (mem_up.2 ⟨by omega, Nat.lt_succ_of_le hr⟩),
        h2.mono ?_⟩
      rintro a ⟨j, hj, i, hi, e⟩
      have hi := (mem_up.1 hi).2
      exact ⟨i, j, by omega, hj, Nat.le_of_lt_succ hi, e⟩
  | lower =>
    refine (parFor_cells (m := fun j => List.range' 0 (j + 1 - 0)) (body := fun j i => action j i)
      (fun j i => C.addr j i) (fun j i => f j i) (fun _ _ => List.nodup_range' (step := 1))
      ?_ ?_).mono ?_
    · intro j hj i hi l hl k hk e
      have hi := (mem_up.1 hi).2
      have hk := (mem_up.1 hk).2
      exact hu j i l k (by omega) (by omega) (Nat.le_of_lt_succ hi) (by omega) (by omega)
        (Nat.le_of_lt_succ hk) e
    · intro j hj i hi
      have hi := (mem_up.1 hi).2
      refine (safe j i (by omega) (by omega) (Nat.le_of_lt_succ hi)).mono ?_ (fun _ h => h)
        (fun _ _ h => h)
      rintro a (rfl | ha)
      · exact Or.inl rfl
      · refine Or.inr fun l hl k hk e => ?_
        have hk := (mem_up.1 hk).2
        exact ha ⟨l, k, by omega, by omega, Nat.le_of_lt_succ hk, e⟩
    · rintro _ h' ⟨h1, h2⟩
      refine ⟨fun i j hi hj hr => h1 i (by omega) j (mem_up.2 ⟨by omega, Nat.lt_succ_of_le hr⟩),
        h2.mono ?_⟩
      rintro a ⟨j, hj, i, hi, e⟩
      have hi := (mem_up.1 hi).2
      exact ⟨j, i, by omega, by omega, Nat.le_of_lt_succ hi, e⟩

/-! ## Sums -/

theorem foldl_range'_sum [AddCommMonoid α] (lo n : Nat) (f : Nat → α) (init : α) :
    (List.range' lo n).foldl (fun s k => s + f k) init = init + ∑ k ∈ Ico lo (lo + n), f k := by
  induction n generalizing lo init with
  | zero => simp
  | succ n ih =>
    rw [List.range'_succ, List.foldl_cons, ih, ← Nat.add_assoc, Nat.add_right_comm lo n 1,
      add_assoc]
    congr 1
    rw [Finset.sum_eq_sum_Ico_succ_bot (by omega : lo < lo + 1 + n)]

theorem sum_Ico_ite [AddCommMonoid α] {n lo hi : Nat} (hle : hi ≤ n) (f : Nat → α) :
    ∑ k ∈ Ico lo hi, f k = ∑ k ∈ range n, if lo ≤ k ∧ k < hi then f k else 0 := by
  rw [← Finset.sum_filter]
  refine Finset.sum_congr ?_ fun _ _ => rfl
  ext k
  simp only [mem_Ico, mem_filter, mem_range]
  omega

end StdBLAS

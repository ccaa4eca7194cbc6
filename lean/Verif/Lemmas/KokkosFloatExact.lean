import Verif.Lemmas.FloatExact
import Verif.Lemmas.KokkosAccurate

/-! # Sums without rounding errors in the order of the Kokkos backend -/

namespace StdBLAS
open Finset
namespace FP
variable {f : Format} {N : ℕ} {G : ℝ}

theorem ex_zero : Ex N G True (0 : FP f) 0 0 :=
  (ex_input (0 : FP f)).congr (fun _ => ⟨0, by simp⟩) rfl abs_zero.symm

theorem Ex.foldl (E : f.Grid N G) {l : List ℕ} {I : Prop} {s : FP f} {S M : ℝ} {e w : ℕ → ℝ}
    {J : ℕ → Prop} {v : ℕ → FP f} (c : Ex N G I s S M)
    (ct : ∀ k ∈ l, Ex N G (J k) (v k) (e k) (w k)) :
    Ex N G (I ∧ ∀ k ∈ l, J k) (l.foldl (fun s k => s + v k) s) (S + (l.map e).sum)
      (M + (l.map w).sum) := by
  induction l generalizing I s S M with
  | nil => exact c.congr (fun h => h.1) (by simp) (by simp)
  | cons a l ih =>
    exact (ih (c.add E (ct a (by simp))) fun k hk => ct k (by simp [hk])).congr
      (fun h => ⟨⟨h.1, h.2 a (by simp)⟩, fun k hk => h.2 k (by simp [hk])⟩) (by simp [add_assoc])
      (by simp [add_assoc])

theorem Ex.foldl_zero (E : f.Grid N G) {l : List ℕ} {e w : ℕ → ℝ} {J : ℕ → Prop} {v : ℕ → FP f}
    (ct : ∀ k ∈ l, Ex N G (J k) (v k) (e k) (w k)) :
    Ex N G (∀ k ∈ l, J k) (l.foldl (fun s k => s + v k) 0) (l.map e).sum (l.map w).sum :=
  (ex_zero.foldl E ct).congr (fun h => ⟨trivial, h⟩) (zero_add _).symm (zero_add _).symm

theorem Ex.foldl_zero_perm (E : f.Grid N G) {n : ℕ} {l : List ℕ} (p : l.Perm (List.range n))
    {e w : ℕ → ℝ} {J : ℕ → Prop} {v : ℕ → FP f}
    (ct : ∀ k, k < n → Ex N G (J k) (v k) (e k) (w k)) :
    Ex N G (∀ k, k < n → J k) (l.foldl (fun s k => s + v k) 0) (∑ k ∈ range n, e k)
      (∑ k ∈ range n, w k) := by
  have hm : ∀ k, k ∈ l ↔ k < n := fun k => by rw [p.mem_iff, List.mem_range]
  exact (Ex.foldl_zero E (l := l) fun k hk => ct k ((hm k).1 hk)).congr
    (fun h k hk => h k ((hm k).1 hk)) (perm_sum p e).symm (perm_sum p w).symm

/-- A sum along a reduction tree. -/
theorem Ex.tree (E : f.Grid N G) {α : Type} {h : Heap α} {body : Nat → FP f → Rd α (FP f)}
    {e w : ℕ → ℝ} {J : ℕ → Prop} {v : ℕ → FP f} (t : RedTree)
    (hb : ∀ i ∈ t.visits, ∀ s, body i s h = .ok (s + v i))
    (ct : ∀ k ∈ t.visits, Ex N G (J k) (v k) (e k) (w k)) :
    ∃ r, t.eval body 0 (fun a b => a + b) h = .ok r ∧
      Ex N G (∀ k ∈ t.visits, J k) r (t.visits.map e).sum (t.visits.map w).sum := by
  induction t with
  | chunk l =>
    exact ⟨l.foldl (fun s i => s + v i) 0, Rd.foldlM_ok (fun s i => s + v i) hb, Ex.foldl_zero E ct⟩
  | join s t ihs iht =>
    have hs : ∀ i, i ∈ s.visits → i ∈ (RedTree.join s t).visits := fun i hi => by
      simp [RedTree.visits, hi]
    have ht : ∀ i, i ∈ t.visits → i ∈ (RedTree.join s t).visits := fun i hi => by
      simp [RedTree.visits, hi]
    obtain ⟨r1, h1, c1⟩ := ihs (fun i hi => hb i (hs i hi)) fun k hk => ct k (hs k hk)
    obtain ⟨r2, h2, c2⟩ := iht (fun i hi => hb i (ht i hi)) fun k hk => ct k (ht k hk)
    refine ⟨r1 + r2, ?_, ?_⟩
    · unfold RedTree.eval
      rw [Rd.bind_ok h1, Rd.bind_ok h2]; rfl
    · refine (c1.add E c2).congr (fun h => ⟨fun k hk => h k (hs k hk), fun k hk => h k (ht k hk)⟩) ?_ ?_
      · simp [RedTree.visits]
      · simp [RedTree.visits]

/-- A parallel sum, under every schedule. -/
theorem Ex.surely (E : f.Grid N G) {α : Type} {n : ℕ} {h : Heap α} {body : Nat → FP f → Rd α (FP f)}
    {e w : ℕ → ℝ} {J : ℕ → Prop} (v : ℕ → FP f) (hb : ∀ i, i < n → ∀ s, body i s h = .ok (s + v i))
    (ct : ∀ k, k < n → Ex N G (J k) (v k) (e k) (w k)) {Q : FP f → Heap α → Prop}
    (q : ∀ r, Ex N G (∀ k, k < n → J k) r (∑ k ∈ range n, e k) (∑ k ∈ range n, w k) → Q r h) :
    Surely (parReduce n body 0 (fun a b => a + b)) h Q := by
  have key : ∀ t : RedTree, t.Covers n →
      ∃ r, (t.eval body 0 (fun a b => a + b)).prog h = .ok (r, h) ∧ Q r h := by
    intro t ht
    have hm : ∀ k, k ∈ t.visits ↔ k < n := fun k => by rw [ht.mem_iff, List.mem_range]
    obtain ⟨r, h1, c1⟩ := Ex.tree E t (fun i hi => hb i ((hm i).1 hi)) fun k hk => ct k ((hm k).1 hk)
    refine ⟨r, ?_, q r ?_⟩
    · unfold Rd.prog
      rw [h1]; rfl
    · exact c1.congr (fun h k hk => h k ((hm k).1 hk)) (perm_sum ht e).symm (perm_sum ht w).symm
  refine ⟨⟨_, .chunk (List.range n), List.Perm.refl _, rfl⟩, ?_⟩
  rintro _ ⟨t, ht, rfl⟩
  obtain ⟨r, h1, h2⟩ := key t ht
  exact ⟨r, h, h1, h2⟩

/-- A row of a symmetric or Hermitian matrix times a vector. -/
theorem Ex.kkSym (E : f.Grid N G) {n i : ℕ} (c : FP f → FP f) (t : Triangle) (a : ℕ → ℕ → FP f)
    (x : ℕ → FP f) {w e : ℕ → ℝ} {J : ℕ → Prop} (hi : i < n)
    (ct : ∀ k, k < n → Ex N G (J k) (mirror c t a i k * x k) (e k) (w k)) :
    Ex N G (∀ k, k < n → J k) (kkSymSeq c t n a x i) (∑ k ∈ range n, e k) (∑ k ∈ range n, w k) := by
  rw [kkSymSeq_order c t a x hi]
  exact Ex.foldl_zero_perm E (kkSymOrder_perm t hi) ct

theorem ex_abs_row (E : f.Grid N G) {n : ℕ} (hn : 0 < n) (x : ℕ → FP f) :
    Ex N G (∀ j, j < n → (x j).On G)
      (StdBLAS.leftSum (FP.abs (x 0)) (n - 1) fun k => FP.abs (x (1 + k)))
      (∑ j ∈ range n, |(x j).val|) (∑ j ∈ range n, |(x j).val|) := by
  have e : ∑ j ∈ range n, |(x j).val| = |(x 0).val| + ∑ k ∈ range (n - 1), |(x (1 + k)).val| := by
    obtain ⟨m, rfl⟩ : ∃ m, n = m + 1 := ⟨n - 1, by omega⟩
    rw [sum_range_succ', _root_.add_comm, Nat.add_sub_cancel]
    simp only [Nat.add_comm 1]
  exact (Ex.leftSum E (n := n - 1) (ex_abs (x 0)) fun k _ => ex_abs (x (1 + k))).congr
    (fun h => ⟨h 0 hn, fun k hk => h (1 + k) (by omega)⟩) e e

/-- The largest of several sums of absolute values. -/
theorem ex_largest (E : f.Grid N G) {m n : ℕ} {x : ℕ → ℕ → FP f} (hn : 0 < n) {l : ℝ} (hl : l ≤ 0)
    (hx : ∀ i j, i < m → j < n → (x i j).On G) {M : ℝ}
    (hM : IsGreatest {y | ∃ i, i < m ∧ y = ∑ j ∈ range n, |(x i j).val|} M) {r : FP f}
    (hr : LargestOf (fin l) m
      (fun i => StdBLAS.leftSum (FP.abs (x i 0)) (n - 1) fun k => FP.abs (x i (1 + k))) r) :
    Ex N G True r M M := by
  obtain ⟨i0, hi0, eM⟩ := hM.1
  have hM0 : 0 ≤ M := by rw [eM]; exact Finset.sum_nonneg fun _ _ => abs_nonneg _
  refine ⟨(abs_of_nonneg hM0).le, fun _ hfit => ?_⟩
  have hrow : ∀ i, i < m → _ := fun i hi =>
    ((ex_abs_row E hn (x i)).exact (fun j hj => hx i j hi hj) ((hM.2 ⟨i, hi, rfl⟩).trans hfit))
  have hm : Multiple G M := by rw [eM]; exact (hrow i0 hi0).2
  refine ⟨?_, hm⟩
  have h0 := hr.le i0 hi0
  rw [(hrow i0 hi0).1, ← eM] at h0
  rcases hr.mem with e | ⟨i, hi, e⟩
  · rw [e] at h0 ⊢
    have : M ≤ l := not_lt.1 (of_decide_eq_false h0)
    rw [show l = M by linarith]
  · rw [(hrow i hi).1] at e
    rw [e] at h0 ⊢
    have h1 : M ≤ _ := not_lt.1 (of_decide_eq_false h0)
    rw [le_antisymm (hM.2 ⟨i, hi, rfl⟩) h1]

end FP
end StdBLAS

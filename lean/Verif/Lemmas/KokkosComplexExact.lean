import Verif.Lemmas.ComplexExact
import Verif.Lemmas.KokkosAccurate

/-! # Complex sums without rounding errors in the order of the Kokkos backend -/

namespace StdBLAS
open Finset
namespace CFP
variable {f : Format} {R : Recovery f} {N : ℕ} {G : ℝ}

theorem ex_zero : Ex N G True (0 : CFP f R) 0 0 :=
  (ex_input (0 : CFP f R)).congr (fun _ => On.zero G) rfl size_zero.symm

theorem Ex.foldl (E : f.Grid N G) {l : List ℕ} {I : Prop} {s : CFP f R} {S : ℂ} {M : ℝ} {e : ℕ → ℂ} {w : ℕ → ℝ}
    {J : ℕ → Prop} {v : ℕ → CFP f R} (c : Ex N G I s S M)
    (ct : ∀ k ∈ l, Ex N G (J k) (v k) (e k) (w k)) :
    Ex N G (I ∧ ∀ k ∈ l, J k) (l.foldl (fun s k => s + v k) s) (S + (l.map e).sum)
      (M + (l.map w).sum) := by
  induction l generalizing I s S M with
  | nil => exact c.congr (fun h => h.1) (by simp) (by simp)
  | cons a l ih =>
    exact (ih (c.add E (ct a (by simp))) fun k hk => ct k (by simp [hk])).congr
      (fun h => ⟨⟨h.1, h.2 a (by simp)⟩, fun k hk => h.2 k (by simp [hk])⟩) (by simp [add_assoc])
      (by simp [add_assoc])

theorem Ex.foldl_zero (E : f.Grid N G) {l : List ℕ} {e : ℕ → ℂ} {w : ℕ → ℝ} {J : ℕ → Prop} {v : ℕ → CFP f R}
    (ct : ∀ k ∈ l, Ex N G (J k) (v k) (e k) (w k)) :
    Ex N G (∀ k ∈ l, J k) (l.foldl (fun s k => s + v k) 0) (l.map e).sum (l.map w).sum :=
  (ex_zero.foldl E ct).congr (fun h => ⟨trivial, h⟩) (zero_add _).symm (zero_add _).symm

theorem Ex.foldl_zero_perm (E : f.Grid N G) {n : ℕ} {l : List ℕ} (p : l.Perm (List.range n))
    {e : ℕ → ℂ} {w : ℕ → ℝ} {J : ℕ → Prop} {v : ℕ → CFP f R}
    (ct : ∀ k, k < n → Ex N G (J k) (v k) (e k) (w k)) :
    Ex N G (∀ k, k < n → J k) (l.foldl (fun s k => s + v k) 0) (∑ k ∈ range n, e k)
      (∑ k ∈ range n, w k) := by
  have hm : ∀ k, k ∈ l ↔ k < n := fun k => by rw [p.mem_iff, List.mem_range]
  exact (Ex.foldl_zero E (l := l) fun k hk => ct k ((hm k).1 hk)).congr
    (fun h k hk => h k ((hm k).1 hk)) (perm_sum p e).symm (perm_sum p w).symm

/-- A sum along a reduction tree. -/
theorem Ex.tree (E : f.Grid N G) {α : Type} {h : Heap α} {body : Nat → CFP f R → Rd α (CFP f R)}
    {e : ℕ → ℂ} {w : ℕ → ℝ} {J : ℕ → Prop} {v : ℕ → CFP f R} (t : RedTree)
    (hb : ∀ i ∈ t.visits, ∀ s, body i s h = .ok (s + v i))
    (ct : ∀ k ∈ t.visits, Ex N G (J k) (v k) (e k) (w k)) :
    ∃ r, t.eval body 0 (fun a b => a + b) h = .ok r ∧
      Ex N G (∀ k ∈ t.visits, J k) r (t.visits.map e).sum (t.visits.map w).sum := by
  induction t with
  | chunk l =>
    exact ⟨l.foldl (fun s i => s + v i) 0, Rd.foldlM_ok (fun s i => s + v i) hb, Ex.foldl_zero E ct⟩
  | join s t ihs iht =>
    have hs : ∀ i, i ∈ s.visits → i ∈ (RedTree.join s t).visits := fun i hi => by
      simp [RedTree.visits, hi]
    have ht : ∀ i, i ∈ t.visits → i ∈ (RedTree.join s t).visits := fun i hi => by
      simp [RedTree.visits, hi]
    obtain ⟨r1, h1, c1⟩ := ihs (fun i hi => hb i (hs i hi)) fun k hk => ct k (hs k hk)
    obtain ⟨r2, h2, c2⟩ := iht (fun i hi => hb i (ht i hi)) fun k hk => ct k (ht k hk)
    refine ⟨r1 + r2, ?_, ?_⟩
    · unfold RedTree.eval
      rw [Rd.bind_ok h1, Rd.bind_ok h2]; rfl
    · refine (c1.add E c2).congr (fun h => ⟨fun k hk => h k (hs k hk), fun k hk => h k (ht k hk)⟩) ?_ ?_
      · simp [RedTree.visits]
      · simp [RedTree.visits]

/-- A parallel sum, under every schedule. -/
theorem Ex.surely (E : f.Grid N G) {α : Type} {n : ℕ} {h : Heap α} {body : Nat → CFP f R → Rd α (CFP f R)}
    {e : ℕ → ℂ} {w : ℕ → ℝ} {J : ℕ → Prop} (v : ℕ → CFP f R) (hb : ∀ i, i < n → ∀ s, body i s h = .ok (s + v i))
    (ct : ∀ k, k < n → Ex N G (J k) (v k) (e k) (w k)) {Q : CFP f R → Heap α → Prop}
    (q : ∀ r, Ex N G (∀ k, k < n → J k) r (∑ k ∈ range n, e k) (∑ k ∈ range n, w k) → Q r h) :
    Surely (parReduce n body 0 (fun a b => a + b)) h Q := by
  have key : ∀ t : RedTree, t.Covers n →
      ∃ r, (t.eval body 0 (fun a b => a + b)).prog h = .ok (r, h) ∧ Q r h := by
    intro t ht
    have hm : ∀ k, k ∈ t.visits ↔ k < n := fun k => by rw [ht.mem_iff, List.mem_range]
    obtain ⟨r, h1, c1⟩ := Ex.tree E t (fun i hi => hb i ((hm i).1 hi)) fun k hk => ct k ((hm k).1 hk)
    refine ⟨r, ?_, q r ?_⟩
    · unfold Rd.prog
      rw [h1]; rfl
    · exact c1.congr (fun h k hk => h k ((hm k).1 hk)) (perm_sum ht e).symm (perm_sum ht w).symm
  refine ⟨⟨_, .chunk (List.range n), List.Perm.refl _, rfl⟩, ?_⟩
  rintro _ ⟨t, ht, rfl⟩
  obtain ⟨r, h1, h2⟩ := key t ht
  exact ⟨r, h, h1, h2⟩

/-- A row of a symmetric or Hermitian matrix times a vector. -/
theorem Ex.kkSym (E : f.Grid N G) {n i : ℕ} (c : CFP f R → CFP f R) (t : Triangle) (a : ℕ → ℕ → CFP f R)
    (x : ℕ → CFP f R) {e : ℕ → ℂ} {w : ℕ → ℝ} {J : ℕ → Prop} (hi : i < n)
    (ct : ∀ k, k < n → Ex N G (J k) (mirror c t a i k * x k) (e k) (w k)) :
    Ex N G (∀ k, k < n → J k) (kkSymSeq c t n a x i) (∑ k ∈ range n, e k) (∑ k ∈ range n, w k) := by
  rw [kkSymSeq_order c t a x hi]
  exact Ex.foldl_zero_perm E (kkSymOrder_perm t hi) ct

end CFP
end StdBLAS

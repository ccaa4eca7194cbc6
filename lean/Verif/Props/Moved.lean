import Verif.Lemmas.MovedCalls
import Verif.Spec.Memory
import Verif.Props.Blas3Products

/-!
# Property C77: where arguments lie and how they are laid out does not matter
-/

namespace StdBLAS
open Witness
variable {α R : Type}
  [Add α] [Sub α] [Mul α] [Div α] [Zero α] [ConjOps α]
  [Zero R] [One R] [Add R] [Mul R] [Div R] [FloatOps R] [MagOps α R]

/-- **C77** Two calls of the same algorithm with the same scalars on views whose elements correspond,
in memories that hold the same in the cells that correspond: both end with the same error, or both end
normally and the cells that correspond hold the same again, while the others are unchanged.  The
arguments may overlap in any way, as long as they overlap in the same way in both calls.  No law is
assumed about any operation. -/
theorem C77_moved (p : Nat → Nat → Prop) (H : OneToOne p) (c c' : Call α R) (hc : Call.Moved p c c')
    (h k : Heap α) (hh : Heap.Moved p h k) : DoSameMoved p c.prog c'.prog h k :=
  moved_prog H hc h k hh

/-- Overlapping arguments: `add(x, reversed x, x)` on cells 0, 1, 2 and on cells 5, 7, 9. -/
example (h k : Heap α) (hk : ∀ i, i < 3 → h i = k (5 + 2 * i)) :
    DoSameMoved (fun a b => a < 3 ∧ b = 5 + 2 * a)
      (Call.add1 (R := R) x.view (⟨3, fun i => 2 - i⟩ : Vec).view x).prog
      (Call.add1 (R := R) (⟨3, fun i => 5 + 2 * i⟩ : Vec).view (⟨3, fun i => 5 + 2 * (2 - i)⟩ : Vec).view
        ⟨3, fun i => 5 + 2 * i⟩).prog h k :=
  C77_moved (fun a b => a < 3 ∧ b = 5 + 2 * a) (fun {a b a' b'} e e' => by omega) _ _
    (by
      exact .add1 _ _ _ _ _ _ ⟨⟨rfl, fun i hi => ⟨hi, rfl⟩⟩, rfl⟩
        ⟨⟨rfl, fun i _ => ⟨by change 2 - i < 3; omega, rfl⟩⟩, rfl⟩ ⟨rfl, fun i hi => ⟨hi, rfl⟩⟩) h k
    (fun a b e => by rw [e.2]; exact hk a e.1)

/-- **C77** The arguments are moved by any one-to-one renaming of the cells, for example to another
allocation. -/
theorem C77_renamed (s : Nat → Nat) (hs : ∀ a b, s a = s b → a = b) (c c' : Call α R)
    (hc : Call.Moved (fun a b => b = s a) c c') (h k : Heap α) (hk : ∀ a, k (s a) = h a) :
    (∃ e, c.prog h = .error e ∧ c'.prog k = .error e) ∨
      ∃ h' k', c.prog h = .ok ((), h') ∧ c'.prog k = .ok ((), k') ∧ (∀ a, k' (s a) = h' a) ∧
        ∀ b, (∀ a, b ≠ s a) → k' b = k b := by
  have H : OneToOne fun a b => b = s a := by
    intro a b a' b' e e'
    subst e e'
    exact ⟨congrArg s, hs a a'⟩
  rcases C77_moved _ H c c' hc h k (fun a b e => by rw [e]; exact (hk a).symm) with
    e | ⟨_, h', k', e1, e2, hm, _, u⟩
  · exact .inl e
  · exact .inr ⟨h', k', e1, e2, fun a => (hm a _ rfl).symm, u⟩

/-- The vectors of a triangular solve are moved up by 1000 cells. -/
example (h k : Heap α) (hk : ∀ a, k (1000 + a) = h a) (t : Triangle) (d : Diag) :
    (∃ e, (Call.trsv (R := R) (· / ·) A.view t d x.view y).prog h = .error e ∧
        (Call.trsv (R := R) (· / ·) (⟨3, 3, fun i j => 1000 + (30 + i + 3 * j)⟩ : Mat).view t d
          (⟨3, fun i => 1000 + i⟩ : Vec).view ⟨3, fun i => 1000 + (10 + 2 * i)⟩).prog k = .error e) ∨
      ∃ h' k', (Call.trsv (R := R) (· / ·) A.view t d x.view y).prog h = .ok ((), h') ∧
        (Call.trsv (R := R) (· / ·) (⟨3, 3, fun i j => 1000 + (30 + i + 3 * j)⟩ : Mat).view t d
          (⟨3, fun i => 1000 + i⟩ : Vec).view ⟨3, fun i => 1000 + (10 + 2 * i)⟩).prog k =
            .ok ((), k') ∧
        (∀ a, k' (1000 + a) = h' a) ∧ ∀ b, (∀ a, b ≠ 1000 + a) → k' b = k b :=
  C77_renamed (fun a => 1000 + a) (fun a b e => by omega) _ _
    (by
      exact .trsv _ _ _ _ _ _ _ _ _ ⟨⟨rfl, rfl, fun _ _ _ _ => rfl⟩, rfl⟩ ⟨⟨rfl, fun _ _ => rfl⟩, rfl⟩
        ⟨rfl, fun _ _ => rfl⟩) h k hk

/-- **C77** Let `L` be the elements of all arguments together, and `f` and `g` two ways to store them
(each in its own cell).  If the memories hold the same elements before the call, they hold the same
elements after it. -/
theorem C77_stored {L : Type} (D : L → Prop) (f g : L → Nat)
    (hf : ∀ l m, D l → D m → f l = f m → l = m) (hg : ∀ l m, D l → D m → g l = g m → l = m)
    (c c' : Call α R) (hc : Call.Moved (fun a b => ∃ l, D l ∧ a = f l ∧ b = g l) c c')
    (h k : Heap α) (hk : ∀ l, D l → h (f l) = k (g l)) :
    (∃ e, c.prog h = .error e ∧ c'.prog k = .error e) ∨
      ∃ h' k', c.prog h = .ok ((), h') ∧ c'.prog k = .ok ((), k') ∧ ∀ l, D l → h' (f l) = k' (g l) := by
  have H : OneToOne fun a b => ∃ l, D l ∧ a = f l ∧ b = g l := by
    rintro a b a' b' ⟨l, hl, rfl, rfl⟩ ⟨m, hm, rfl, rfl⟩
    exact ⟨fun e => by rw [hf l m hl hm e], fun e => by rw [hg l m hl hm e]⟩
  rcases C77_moved _ H c c' hc h k (fun a b e => by
      obtain ⟨l, hl, rfl, rfl⟩ := e
      exact hk l hl) with e | ⟨_, h', k', e1, e2, hm, _⟩
  · exact .inl e
  · exact .inr ⟨h', k', e1, e2, fun l hl => hm _ _ ⟨l, hl, rfl, rfl⟩⟩

/-- The elements of three matrices. -/
inductive Element3 | a (i j : Nat) | b (i j : Nat) | c (i j : Nat)

/-- Where they are stored. -/
def Element3.cell (A B C : Mat) : Element3 → Nat
  | .a i j => A.addr i j
  | .b i j => B.addr i j
  | .c i j => C.addr i j

/-- Which of them there are. -/
def Element3.Exists (A B C : Mat) : Element3 → Prop
  | .a i j => i < A.rows ∧ j < A.cols
  | .b i j => i < B.rows ∧ j < B.cols
  | .c i j => i < C.rows ∧ j < C.cols

theorem element3_inj {A B C : Mat} (uA : A.Unique) (uB : B.Unique) (uC : C.Unique)
    (ab : Apart A.Cell B.Cell) (ac : Apart A.Cell C.Cell) (bc : Apart B.Cell C.Cell) (l m : Element3)
    (hl : l.Exists A B C) (hm : m.Exists A B C) (e : l.cell A B C = m.cell A B C) : l = m := by
  cases l with
  | a i j =>
    cases m with
    | a i' j' =>
      have := uA i j i' j' hl.1 hl.2 trivial hm.1 hm.2 trivial e
      rw [this.1, this.2]
    | b i' j' => exact (ab _ ⟨i, j, hl.1, hl.2, trivial, rfl⟩ ⟨i', j', hm.1, hm.2, trivial, e.symm⟩).elim
    | c i' j' => exact (ac _ ⟨i, j, hl.1, hl.2, trivial, rfl⟩ ⟨i', j', hm.1, hm.2, trivial, e.symm⟩).elim
  | b i j =>
    cases m with
    | a i' j' => exact (ab _ ⟨i', j', hm.1, hm.2, trivial, rfl⟩ ⟨i, j, hl.1, hl.2, trivial, e⟩).elim
    | b i' j' =>
      have := uB i j i' j' hl.1 hl.2 trivial hm.1 hm.2 trivial e
      rw [this.1, this.2]
    | c i' j' => exact (bc _ ⟨i, j, hl.1, hl.2, trivial, rfl⟩ ⟨i', j', hm.1, hm.2, trivial, e.symm⟩).elim
  | c i j =>
    cases m with
    | a i' j' => exact (ac _ ⟨i', j', hm.1, hm.2, trivial, rfl⟩ ⟨i, j, hl.1, hl.2, trivial, e⟩).elim
    | b i' j' => exact (bc _ ⟨i', j', hm.1, hm.2, trivial, rfl⟩ ⟨i, j, hl.1, hl.2, trivial, e⟩).elim
    | c i' j' =>
      have := uC i j i' j' hl.1 hl.2 trivial hm.1 hm.2 trivial e
      rw [this.1, this.2]

/-- Three matrices that do not overlap and visit no cell twice. -/
structure Stored3 (A B C : Mat) : Prop where
  uniqueA : A.Unique
  uniqueB : B.Unique
  uniqueC : C.Unique
  ab : Apart A.Cell B.Cell
  ac : Apart A.Cell C.Cell
  bc : Apart B.Cell C.Cell

/-- Two matrices of the same extents in two memories have the same elements. -/
structure SameElements (h k : Heap α) (A A' : Mat) : Prop where
  rows : A.rows = A'.rows
  cols : A.cols = A'.cols
  elements : ∀ i j, i < A.rows → j < A.cols → h (A.addr i j) = k (A'.addr i j)

/-- **C77** A call with three matrices (`algorithm A B C`), in any two ways of storing them. -/
theorem C77_matrix_layouts (algorithm : Mat → Mat → Mat → Call α R)
    (hcall : ∀ p A B C A' B' C', Mat.Moved p A A' → Mat.Moved p B B' → Mat.Moved p C C' →
      Call.Moved p (algorithm A B C) (algorithm A' B' C'))
    {A B C A' B' C' : Mat} (s : Stored3 A B C) (s' : Stored3 A' B' C') (h k : Heap α)
    (hA : SameElements h k A A') (hB : SameElements h k B B') (hC : SameElements h k C C') :
    (∃ e, (algorithm A B C).prog h = .error e ∧ (algorithm A' B' C').prog k = .error e) ∨
      ∃ h' k', (algorithm A B C).prog h = .ok ((), h') ∧ (algorithm A' B' C').prog k = .ok ((), k') ∧
        SameElements h' k' A A' ∧ SameElements h' k' B B' ∧ SameElements h' k' C C' := by
  have ex : ∀ l : Element3, l.Exists A B C → l.Exists A' B' C' := by
    intro l hl
    cases l with
    | a i j => exact ⟨hA.rows ▸ hl.1, hA.cols ▸ hl.2⟩
    | b i j => exact ⟨hB.rows ▸ hl.1, hB.cols ▸ hl.2⟩
    | c i j => exact ⟨hC.rows ▸ hl.1, hC.cols ▸ hl.2⟩
  rcases C77_stored (Element3.Exists A B C) (Element3.cell A B C) (Element3.cell A' B' C')
      (element3_inj s.uniqueA s.uniqueB s.uniqueC s.ab s.ac s.bc)
      (fun l m hl hm => element3_inj s'.uniqueA s'.uniqueB s'.uniqueC s'.ab s'.ac s'.bc l m
        (ex l hl) (ex m hm))
      (algorithm A B C) (algorithm A' B' C')
      (hcall _ _ _ _ _ _ _ ⟨hA.rows, hA.cols, fun i j hi hj => ⟨.a i j, ⟨hi, hj⟩, rfl, rfl⟩⟩
        ⟨hB.rows, hB.cols, fun i j hi hj => ⟨.b i j, ⟨hi, hj⟩, rfl, rfl⟩⟩
        ⟨hC.rows, hC.cols, fun i j hi hj => ⟨.c i j, ⟨hi, hj⟩, rfl, rfl⟩⟩) h k (by
      intro l hl
      cases l with
      | a i j => exact hA.elements i j hl.1 hl.2
      | b i j => exact hB.elements i j hl.1 hl.2
      | c i j => exact hC.elements i j hl.1 hl.2) with e | ⟨h', k', e1, e2, hl⟩
  · exact .inl e
  · exact .inr ⟨h', k', e1, e2, ⟨hA.rows, hA.cols, fun i j hi hj => hl (.a i j) ⟨hi, hj⟩⟩,
      ⟨hB.rows, hB.cols, fun i j hi hj => hl (.b i j) ⟨hi, hj⟩⟩,
      ⟨hC.rows, hC.cols, fun i j hi hj => hl (.c i j) ⟨hi, hj⟩⟩⟩

omit [Add α] [Sub α] [Mul α] [Div α] [Zero α] [ConjOps α] in
theorem view_moved {p : Nat → Nat → Prop} {A A' : Mat} (h : Mat.Moved p A A') :
    MatV.Moved (α := α) p A.view A'.view := ⟨h, rfl⟩

/-- **C77** A matrix product gives the same bits whether the matrices are stored by rows or by
columns, with or without padding. -/
theorem C77_product_layouts {A B C A' B' C' : Mat} (s : Stored3 A B C) (s' : Stored3 A' B' C')
    (h k : Heap α) (hA : SameElements h k A A') (hB : SameElements h k B B')
    (hC : SameElements h k C C') :
    (∃ e, (Call.gemm (R := R) A.view B.view C).prog h = .error e ∧
        (Call.gemm (R := R) A'.view B'.view C').prog k = .error e) ∨
      ∃ h' k', (Call.gemm (R := R) A.view B.view C).prog h = .ok ((), h') ∧
        (Call.gemm (R := R) A'.view B'.view C').prog k = .ok ((), k') ∧ SameElements h' k' C C' := by
  rcases C77_matrix_layouts (fun A B C => Call.gemm (R := R) A.view B.view C)
    (fun _ _ _ _ _ _ _ a b c => .gemm _ _ _ _ _ _ (view_moved a) (view_moved b) c) s s' h k hA hB hC
    with e | ⟨h', k', e1, e2, _, _, hC'⟩
  · exact .inl e
  · exact .inr ⟨h', k', e1, e2, hC'⟩

/-- **C77** A triangular solve with several right-hand sides gives the same bits for all layouts. -/
theorem C77_solve_layouts {A B C A' B' C' : Mat} (s : Stored3 A B C) (s' : Stored3 A' B' C')
    (t : Triangle) (d : Diag) (side : Side)
    (h k : Heap α) (hA : SameElements h k A A') (hB : SameElements h k B B')
    (hC : SameElements h k C C') :
    (∃ e, (Call.trsm (R := R) A.view t d side B.view C).prog h = .error e ∧
        (Call.trsm (R := R) A'.view t d side B'.view C').prog k = .error e) ∨
      ∃ h' k', (Call.trsm (R := R) A.view t d side B.view C).prog h = .ok ((), h') ∧
        (Call.trsm (R := R) A'.view t d side B'.view C').prog k = .ok ((), k') ∧
        SameElements h' k' C C' := by
  rcases C77_matrix_layouts (fun A B C => Call.trsm (R := R) A.view t d side B.view C)
    (fun _ _ _ _ _ _ _ a b c => .trsm _ _ _ _ _ _ _ _ _ (view_moved a) (view_moved b) c) s s' h k
    hA hB hC with e | ⟨h', k', e1, e2, _, _, hC'⟩
  · exact .inl e
  · exact .inr ⟨h', k', e1, e2, hC'⟩

/-! Column-major, padded row-major and row-major matrices against row-major, column-major and padded
row-major ones in other places: `moved` holds at the new places what `heap` holds at the old ones. -/

private def A' : Mat := ⟨3, 3, fun i j => 9 + 3 * i + j⟩
private def B' : Mat := ⟨3, 3, fun i j => i + 3 * j⟩
private def C' : Mat := ⟨3, 3, fun i j => 20 + 7 * i + j⟩
private noncomputable def moved : Heap ℝ := fun a =>
  if a < 9 then heap ℝ (50 + 5 * (a % 3) + a / 3)
  else if a < 18 then heap ℝ (30 + (a - 9) / 3 + 3 * ((a - 9) % 3))
  else heap ℝ (70 + 3 * ((a - 20) / 7) + (a - 20) % 7)

private theorem old_stored : Stored3 A B C :=
  ⟨by view_facts, by view_facts, by view_facts, by view_facts, by view_facts, by view_facts⟩

private theorem new_stored : Stored3 A' B' C' := by
  refine ⟨?_, ?_, ?_, ?_, ?_, ?_⟩
  · intro i j k l hi hj _ hk hl _ e; simp only [A'] at *; omega
  · intro i j k l hi hj _ hk hl _ e; simp only [B'] at *; omega
  · intro i j k l hi hj _ hk hl _ e; simp only [C'] at *; omega
  · rintro a ⟨i, j, hi, hj, _, e⟩ ⟨k, l, hk, hl, _, e'⟩; simp only [A', B'] at *; omega
  · rintro a ⟨i, j, hi, hj, _, e⟩ ⟨k, l, hk, hl, _, e'⟩; simp only [A', C'] at *; omega
  · rintro a ⟨i, j, hi, hj, _, e⟩ ⟨k, l, hk, hl, _, e'⟩; simp only [B', C'] at *; omega

private theorem sameA : SameElements (heap ℝ) moved A A' := by
  refine ⟨rfl, rfl, fun i j hi hj => ?_⟩
  simp only [A] at hi hj
  change heap ℝ (30 + i + 3 * j) = moved (9 + 3 * i + j)
  unfold moved
  rw [if_neg (show ¬ 9 + 3 * i + j < 9 by omega), if_pos (show 9 + 3 * i + j < 18 by omega)]
  congr 1; omega

private theorem sameB : SameElements (heap ℝ) moved B B' := by
  refine ⟨rfl, rfl, fun i j hi hj => ?_⟩
  simp only [B] at hi hj
  change heap ℝ (50 + 5 * i + j) = moved (i + 3 * j)
  unfold moved
  rw [if_pos (by omega)]
  congr 1; omega

private theorem sameC : SameElements (heap ℝ) moved C C' := by
  refine ⟨rfl, rfl, fun i j hi hj => ?_⟩
  simp only [C] at hi hj
  change heap ℝ (70 + 3 * i + j) = moved (20 + 7 * i + j)
  unfold moved
  rw [if_neg (show ¬ 20 + 7 * i + j < 9 by omega), if_neg (show ¬ 20 + 7 * i + j < 18 by omega)]
  congr 1; omega

/-- Both products end normally, with the same elements. -/
example : ∃ h' k', gemm A.view B.view C (heap ℝ) = .ok ((), h') ∧
    gemm A'.view B'.view C' moved = .ok ((), k') ∧ SameElements h' k' C C' := by
  obtain ⟨_, h', e, _⟩ := C31_gemm A.view B.view C (heap ℝ) _ _ (mholdsV bA) (mholdsV bB) (malloc bC)
    rfl rfl rfl old_stored.uniqueC old_stored.ac old_stored.bc
  rcases C77_product_layouts (R := ℝ) old_stored new_stored (heap ℝ) moved sameA sameB sameC with
    ⟨er, e1, _⟩ | r
  · exact absurd (e.symm.trans e1) (by exact nofun)
  · exact r

example (t : Triangle) (d : Diag) (side : Side) :
    (∃ e, trsm A.view t d side B.view C (heap ℝ) = .error e ∧
        trsm A'.view t d side B'.view C' moved = .error e) ∨
      ∃ h' k', trsm A.view t d side B.view C (heap ℝ) = .ok ((), h') ∧
        trsm A'.view t d side B'.view C' moved = .ok ((), k') ∧ SameElements h' k' C C' :=
  C77_solve_layouts (R := ℝ) old_stored new_stored t d side (heap ℝ) moved sameA sameB sameC

/-- The symmetric product from the right, by the general statement. -/
example (t : Triangle) :
    (∃ e, symmRight B.view A.view t C (heap ℝ) = .error e ∧
        symmRight B'.view A'.view t C' moved = .error e) ∨
      ∃ h' k', symmRight B.view A.view t C (heap ℝ) = .ok ((), h') ∧
        symmRight B'.view A'.view t C' moved = .ok ((), k') ∧ SameElements h' k' A A' ∧
        SameElements h' k' B B' ∧ SameElements h' k' C C' :=
  C77_matrix_layouts (fun A B C => Call.symmRight (R := ℝ) B.view A.view t C)
    (fun _ _ _ _ _ _ _ a b c => .symmRight _ _ _ _ _ _ _ (view_moved b) (view_moved a) c)
    old_stored new_stored (heap ℝ) moved sameA sameB sameC

/-- Column-major and row-major storage of a 3×3 matrix, one location per index pair. -/
example (alpha : ℝ) (h k : Heap ℝ) (hk : ∀ i j, i < 3 → j < 3 → h (i + 3 * j) = k (3 * i + j)) :
    (∃ e, scale2 alpha ⟨3, 3, fun i j => i + 3 * j⟩ h = .error e ∧
        scale2 alpha ⟨3, 3, fun i j => 3 * i + j⟩ k = .error e) ∨
      ∃ h' k', scale2 alpha ⟨3, 3, fun i j => i + 3 * j⟩ h = .ok ((), h') ∧
        scale2 alpha ⟨3, 3, fun i j => 3 * i + j⟩ k = .ok ((), k') ∧
        ∀ i j, i < 3 → j < 3 → h' (i + 3 * j) = k' (3 * i + j) := by
  rcases C77_stored (R := ℝ) (fun l : Nat × Nat => l.1 < 3 ∧ l.2 < 3) (fun l => l.1 + 3 * l.2)
      (fun l => 3 * l.1 + l.2)
      (fun l m hl hm e => by ext <;> omega)
      (fun l m hl hm e => by ext <;> omega)
      (.scale2 alpha ⟨3, 3, fun i j => i + 3 * j⟩) (.scale2 alpha ⟨3, 3, fun i j => 3 * i + j⟩)
      (.scale2 _ _ _ ⟨rfl, rfl, fun i j hi hj => ⟨(i, j), ⟨hi, hj⟩, rfl, rfl⟩⟩) h k
      (fun l hl => hk l.1 l.2 hl.1 hl.2) with q | ⟨h', k', e1, e2, q⟩
  · exact .inl q
  · exact .inr ⟨h', k', e1, e2, fun i j hi hj => q (i, j) ⟨hi, hj⟩⟩

end StdBLAS

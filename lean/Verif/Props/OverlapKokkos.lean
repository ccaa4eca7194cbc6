import Verif.Lemmas.Races
import Verif.Props.KokkosLoops
import Verif.Props.KokkosProducts

/-!
# Overlapping arguments, Kokkos backend (C81)

With the Kokkos backend the iterations run in any order and at the same time.  Arguments that overlap other
than element by element are a data race, also in cases in which the serial code is well defined.
-/

namespace StdBLAS
variable {α : Type}
open Witness

/-- **C81** `swap_elements(exec, x, y)` is defined exactly if `x` and `y` overlap at most element by element. -/
theorem C81_kokkos_swap (x y : KVec) (h : Heap α) (f g : Nat → α) (hx : x.mdspan.Holds h f)
    (hy : y.mdspan.Holds h g) (hxs : x.stride = 1) (hys : y.stride = 1) (hext : x.ext = y.ext) :
    Surely (kkSwap1 x y) h (fun _ _ => True) ↔ x.mdspan.Aligned y.mdspan := by
  constructor
  · intro q i k hi hk e
    by_contra hne
    refine not_surely ?_ q
    have hi' : i < x.ext := hi
    have hk' : k < x.ext := hext ▸ hk
    unfold kkSwap1
    rw [require_met hext, KVec.view_eq hxs, KVec.view_eq hys]
    refine parFor_races (a := x.mdspan.addr i) (i := i) (k := k)
      (t := .store (x.mdspan.addr i) (g i) (.store (y.mdspan.addr i) (f i) (.done ())))
      (u := .load (y.mdspan.addr k) fun b =>
        .store (x.mdspan.addr k) b (.store (y.mdspan.addr k) (f k) (.done ())))
      hi' hk' hne ?_ ?_ rfl e.symm
    · have hiy : i < y.mdspan.ext := show i < y.ext by omega
      simp only [Vec.rd, Vec.wr, if_pos hi, if_pos hiy]
      exact .load (hx i hi) (.load (hy i hiy) (.here _))
    · have hkx : k < x.mdspan.ext := hk'
      simp only [Vec.rd, Vec.wr, if_pos hkx, if_pos hk]
      exact .load (hx k hkx) (.here _)
  · exact fun q => (C48_swap_vector x y h f g hx hy hxs hys hext q).mono fun _ _ _ => trivial

example : Surely (kkSwap1 kx ky) (heap ℤ) (fun _ _ => True) :=
  (C81_kokkos_swap kx ky (heap ℤ) _ _ (holds bkx) (holds bky) rfl rfl rfl).2 (by kview_facts)

/-- Cells 0 1 2 and cells 1 2 3. -/
example : ¬ Surely (kkSwap1 ⟨3, 0, 1⟩ ⟨3, 1, 1⟩) (heap ℤ) (fun _ _ => True) := by
  rw [C81_kokkos_swap ⟨3, 0, 1⟩ ⟨3, 1, 1⟩ (heap ℤ) _ _
    (holds (by intro i hi; simp only [KVec.mdspan] at *; omega))
    (holds (by intro i hi; simp only [KVec.mdspan] at *; omega)) rfl rfl rfl]
  intro q
  have := q 1 0 (by decide) (by decide) rfl
  omega

/-- **C81** `copy(exec, x, y)` of matrices with different layouts is undefined if the first element of a row
of `y` lies in the cell of the first element of another row of `x`. -/
theorem C81_kokkos_copy_rows (x y : KMat) (h : Heap α) (f : Nat → Nat → α) (hx : x.toMat.Holds h f)
    (hxt : x.transposed = false) (hyt : y.transposed = false)
    (hr : x.rows = y.rows) (hc : x.cols = y.cols) (i k : Nat) (hi : i < x.rows) (hk : k < x.rows)
    (hne : i ≠ k) (hcol : 0 < x.cols) (e : y.addr i 0 = x.addr k 0) :
    kkCopy2 x y h (.error .ub) := by
  unfold kkCopy2
  rw [KMat.view_eq hxt, KMat.view_eq hyt]
  obtain ⟨m, hm⟩ : ∃ m, x.cols = m + 1 := ⟨x.cols - 1, by omega⟩
  have hxi : i < x.rows ∧ 0 < x.cols := ⟨hi, hcol⟩
  have hyi : i < y.rows ∧ 0 < y.cols := ⟨hr ▸ hi, hc ▸ hcol⟩
  have hxk : k < x.rows ∧ 0 < x.cols := ⟨hk, hcol⟩
  have first : ∀ body : Nat → Task α Unit, Task.forUp 0 x.cols body =
      (body 0 >>= fun _ => Task.forEach (List.range' 1 m) body) := by
    intro body
    unfold Task.forUp
    rw [Nat.sub_zero, hm, List.range'_succ]
    rfl
  refine parFor_races_of (a := y.addr i 0) hi hk hne ?_ ?_
  · rw [first]
    simp only [Mat.rd, Mat.wr, if_pos hxi, if_pos hyi]
    exact ⟨_, .load (hx i 0 hi hcol trivial) (.here _), rfl⟩
  · rw [first]
    simp only [Mat.rd, if_pos hxk]
    exact ⟨_, .here _, e.symm⟩

/-- `x` is column-major in cells 2 to 5, `y` is row-major in cells 0 to 3. -/
example : kkCopy2 ⟨⟨2, 2, fun i j => 2 + i + 2 * j⟩, false⟩ ⟨⟨2, 2, fun i j => 2 * i + j⟩, false⟩ (heap ℤ)
    (.error .ub) :=
  C81_kokkos_copy_rows _ _ _ _
    (mholds (by intro i j hi hj; simp only at *; omega)) rfl rfl rfl rfl 1 0
    (by decide) (by decide) (by decide) (by decide) rfl

/-- **C81** The updating `matrix_vector_product(exec, A, x, y, z)` is undefined if an element of `x` lies in
`z` and there is more than one row. -/
theorem C81_kokkos_gemv_input [Add α] [Mul α] [Zero α] (A : KMat) (x y z : KVec)
    (h : Heap α) (a : Nat → Nat → α) (f g : Nat → α) (hA : A.toMat.Holds h a)
    (hx : x.mdspan.Holds h f) (hy : y.mdspan.Holds h g)
    (hAt : A.transposed = false) (hxs : x.stride = 1) (hys : y.stride = 1) (hzs : z.stride = 1)
    (hxe : A.cols = x.ext) (hye : A.rows = y.ext) (hze : A.rows = z.ext) (i j : Nat)
    (hi : i < z.ext) (hj : j < x.ext) (two : 2 ≤ A.rows)
    (e : z.mdspan.addr i = x.mdspan.addr j) :
    kkGemvUpdate A x y z h (.error .ub) := by
  unfold kkGemvUpdate
  rw [require_met hxe, require_met hye, require_met hze, KMat.view_eq hAt, KVec.view_eq hxs,
    KVec.view_eq hys, KVec.view_eq hzs]
  obtain ⟨k, hk, hne⟩ : ∃ k, k < z.ext ∧ i ≠ k := by
    by_cases h0 : i = 0
    · exact ⟨1, by omega, by omega⟩
    · exact ⟨0, by omega, h0⟩
  have term : ∀ r, r < z.ext → ∀ s : α, ∀ l, l < x.ext → ∃ s', Task.Reads h
      (do let yi ← y.mdspan.rd r
          let b ← A.toMat.rd r l
          let xj ← x.mdspan.rd l
          pure (s + (yi + b * xj))) (.done s') := by
    intro r hr s l hl
    have h1 : r < y.mdspan.ext := show r < y.ext by omega
    have h2 : r < A.rows ∧ l < A.cols := by omega
    have h3 : l < x.mdspan.ext := hl
    simp only [Vec.rd, Mat.rd, if_pos h1, if_pos h2, if_pos h3]
    exact ⟨_, .load (hy r h1) (.load (hA r l h2.1 h2.2 trivial) (.load (hx l h3) (.here _)))⟩
  obtain ⟨s, p⟩ := Task.reads_fold (List.range' 0 (A.cols - 0)) (0 : α) _ fun s l hl =>
    term i hi s l (by simp at hl; omega)
  obtain ⟨s', p'⟩ := Task.reads_fold (List.range' 0 j) (0 : α) _ fun s l hl =>
    term k hk s l (by simp at hl; omega)
  have split : List.range' 0 (A.cols - 0) = List.range' 0 j ++ j :: List.range' (j + 1) (A.cols - j - 1) := by
    rw [← List.range'_succ, show A.cols - j - 1 + 1 = A.cols - j by omega]
    have := List.range'_append (s := 0) (m := j) (n := A.cols - j) (step := 1)
    rw [show 0 + 1 * j = j by omega] at this
    rw [this]
    congr 1
    omega
  refine parFor_races_of (a := z.mdspan.addr i) hi hk hne ?_ ?_
  · have hz : i < z.mdspan.ext := hi
    refine ⟨.store (z.mdspan.addr i) s (.done ()), (p.bind _).trans ?_, rfl⟩
    show Task.Reads h (z.mdspan.wr i s) _
    unfold Vec.wr
    rw [if_pos hz]
    exact .here _
  · unfold Task.foldUp
    rw [split, Task.foldEach_append]
    have h1 : k < y.mdspan.ext := show k < y.ext by omega
    have h2 : k < A.rows ∧ j < A.cols := by omega
    have h3 : j < x.mdspan.ext := hj
    refine reads_then ((p'.bind _).bind _) ?_
    simp only [Task.foldEach, Vec.rd, Mat.rd, if_pos h1, if_pos h2, if_pos h3]
    exact ⟨_, .load (hy k h1) (.load (hA k j h2.1 h2.2 trivial) (.here _)), e.symm⟩

/-- `x` and `z` are the same vector -/
example : kkGemvUpdate kA kx ky kx (heap ℤ) (.error .ub) :=
  C81_kokkos_gemv_input kA kx ky kx _ _ _ _ (mholds bA) (holds bkx) (holds bky) rfl rfl rfl rfl rfl rfl rfl
    1 1 (by decide) (by decide) (by decide) rfl

end StdBLAS

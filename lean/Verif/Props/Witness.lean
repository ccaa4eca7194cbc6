import Verif.Spec.Memory

/-!
# Concrete data used beside the theorems

A memory of 200 accessible cells (everything above is inaccessible) and views with
different layouts in it.  Beside each theorem an `example` applies it to these.
-/

namespace StdBLAS.Witness

/-- Cells 0..199 are accessible, cell `a` holds `a - 7`. -/
def heap (β : Type) [IntCast β] : Heap β :=
  fun a => if a < 200 then some (((a : ℤ) - 7 : ℤ) : β) else none

/-- 3 elements, contiguous, cells 0 1 2 -/
def x : Vec := ⟨3, fun i => i⟩
/-- 3 elements, stride 2, cells 10 12 14 -/
def y : Vec := ⟨3, fun i => 10 + 2 * i⟩
/-- 3 elements, reversed, cells 22 21 20 -/
def z : Vec := ⟨3, fun i => 22 - i⟩
/-- 3×3, column-major, cells 30..38 -/
def A : Mat := ⟨3, 3, fun i j => 30 + i + 3 * j⟩
/-- 3×3, row-major, padded rows, cells 50..62 -/
def B : Mat := ⟨3, 3, fun i j => 50 + 5 * i + j⟩
/-- 3×3, row-major, cells 70..78 -/
def C : Mat := ⟨3, 3, fun i j => 70 + 3 * i + j⟩
/-- 3×3, column-major, cells 90..98 -/
def E : Mat := ⟨3, 3, fun i j => 90 + i + 3 * j⟩
/-- 3×2, row-major, cells 110..115 -/
def T : Mat := ⟨3, 2, fun i j => 110 + 2 * i + j⟩
/-- 2×3, column-major, cells 120..125 -/
def W : Mat := ⟨2, 3, fun i j => 120 + i + 2 * j⟩

/-- The elements of a vector view of `heap`. -/
def vals (β : Type) [IntCast β] (v : Vec) : Nat → β := fun i => (((v.addr i : ℤ) - 7 : ℤ) : β)
/-- The elements of a matrix view of `heap`. -/
def mvals (β : Type) [IntCast β] (m : Mat) : Nat → Nat → β :=
  fun i j => (((m.addr i j : ℤ) - 7 : ℤ) : β)

/-- Proves uniqueness, alignment, disjointness of the concrete views. -/
macro "view_facts" : tactic => `(tactic| (
  first
  | (intro i k hi hk e
     simp only [x, y, z, Vec.view] at *; omega)
  | (intro i j k l hi hj hk hl e
     simp only [A, B, C, E, T, W, Mat.view] at *; omega)
  | (intro i j k l hi hj hr hk hl hr' e
     simp only [A, B, C, E, T, W, Mat.view] at *; omega)
  | (rintro a ⟨i, hi, e⟩ ⟨k, hk, e'⟩
     simp only [x, y, z, Vec.view] at *; omega)
  | (rintro a ⟨i, j, hi, hj, hr, e⟩ ⟨k, hk, e'⟩
     simp only [x, y, z, Vec.view, A, B, C, E, T, W, Mat.view] at *; omega)
  | (rintro a ⟨k, hk, e'⟩ ⟨i, j, hi, hj, hr, e⟩
     simp only [x, y, z, Vec.view, A, B, C, E, T, W, Mat.view] at *; omega)
  | (rintro a ⟨i, j, hi, hj, hr, e⟩ ⟨k, l, hk, hl, hr', e'⟩
     simp only [A, B, C, E, T, W, Mat.view] at *; omega)))

section
variable {β : Type} [IntCast β]

theorem heap_lt {a : Nat} (ha : a < 200) : heap β a = some (((a : ℤ) - 7 : ℤ) : β) := by
  unfold heap; rw [if_pos ha]

theorem holds {v : Vec} (hv : ∀ i, i < v.ext → v.addr i < 200) :
    v.Holds (heap β) (vals β v) := fun i hi => heap_lt (hv i hi)
theorem alloc {v : Vec} (hv : ∀ i, i < v.ext → v.addr i < 200) :
    v.Alloc (heap β) := fun i hi => ⟨_, heap_lt (hv i hi)⟩
theorem holdsV {v : Vec} (hv : ∀ i, i < v.ext → v.addr i < 200) :
    (v.view : VecV β).Holds (heap β) (vals β v) := fun i hi => ⟨_, heap_lt (hv i hi), rfl⟩
theorem mholds {m : Mat} {R : Region} (hm : ∀ i j, i < m.rows → j < m.cols → m.addr i j < 200) :
    m.HoldsOn (heap β) R (mvals β m) := fun i j hi hj _ => heap_lt (hm i j hi hj)
theorem malloc {m : Mat} {R : Region} (hm : ∀ i j, i < m.rows → j < m.cols → m.addr i j < 200) :
    m.AllocOn (heap β) R := fun i j hi hj _ => ⟨_, heap_lt (hm i j hi hj)⟩
theorem mholdsV {m : Mat} {R : Region} (hm : ∀ i j, i < m.rows → j < m.cols → m.addr i j < 200) :
    (m.view : MatV β).HoldsOn (heap β) R (mvals β m) :=
  fun i j hi hj _ => ⟨_, heap_lt (hm i j hi hj), rfl⟩
end

theorem bx : ∀ i, i < x.ext → x.addr i < 200 := by intro i hi; simp only [x] at *; omega
theorem by_ : ∀ i, i < y.ext → y.addr i < 200 := by intro i hi; simp only [y] at *; omega
theorem bz : ∀ i, i < z.ext → z.addr i < 200 := by intro i hi; simp only [z] at *; omega
theorem bA : ∀ i j, i < A.rows → j < A.cols → A.addr i j < 200 := by
  intro i j hi hj; simp only [A] at *; omega
theorem bB : ∀ i j, i < B.rows → j < B.cols → B.addr i j < 200 := by
  intro i j hi hj; simp only [B] at *; omega
theorem bC : ∀ i j, i < C.rows → j < C.cols → C.addr i j < 200 := by
  intro i j hi hj; simp only [C] at *; omega
theorem bE : ∀ i j, i < E.rows → j < E.cols → E.addr i j < 200 := by
  intro i j hi hj; simp only [E] at *; omega
theorem bT : ∀ i j, i < T.rows → j < T.cols → T.addr i j < 200 := by
  intro i j hi hj; simp only [T] at *; omega
theorem bW : ∀ i j, i < W.rows → j < W.cols → W.addr i j < 200 := by
  intro i j hi hj; simp only [W] at *; omega

end StdBLAS.Witness

import Verif.Model.Kokkos
import Verif.Props.Witness

/-! # Concrete data for the theorems about the Kokkos backend -/

namespace StdBLAS.Witness

/-- contiguous, cells 0 1 2 -/
def kx : KVec := ⟨3, 0, 1⟩
/-- contiguous, cells 10 11 12 -/
def ky : KVec := ⟨3, 10, 1⟩
/-- contiguous, cells 20 21 22 -/
def kz : KVec := ⟨3, 20, 1⟩
/-- 3×3, column-major, cells 30..38 -/
def kA : KMat := ⟨A, false⟩
/-- 3×3, row-major, padded rows, cells 50..62 -/
def kB : KMat := ⟨B, false⟩
/-- 3×3, row-major, cells 70..78 -/
def kC : KMat := ⟨C, false⟩
/-- 3×3, column-major, cells 90..98 -/
def kE : KMat := ⟨E, false⟩
/-- 3×2, row-major, cells 110..115 -/
def kT : KMat := ⟨T, false⟩
/-- 2×3, column-major, cells 120..125 -/
def kW : KMat := ⟨W, false⟩

theorem bkx : ∀ i, i < kx.mdspan.ext → kx.mdspan.addr i < 200 := by
  intro i hi; simp only [kx, KVec.mdspan] at *; omega
theorem bky : ∀ i, i < ky.mdspan.ext → ky.mdspan.addr i < 200 := by
  intro i hi; simp only [ky, KVec.mdspan] at *; omega
theorem bkz : ∀ i, i < kz.mdspan.ext → kz.mdspan.addr i < 200 := by
  intro i hi; simp only [kz, KVec.mdspan] at *; omega

/-- Proves uniqueness, alignment, disjointness of the concrete views. -/
macro "kview_facts" : tactic => `(tactic| (
  first
  | (intro i k hi hk e
     simp only [kx, ky, kz, KVec.mdspan] at *; omega)
  | (intro i j k l hi hj hk hl e
     simp only [kA, kB, kC, kE, kT, kW, A, B, C, E, T, W] at *; omega)
  | (intro i j k l hi hj hr hk hl hr' e
     simp only [kA, kB, kC, kE, kT, kW, A, B, C, E, T, W] at *; omega)
  | (rintro a ⟨i, hi, e⟩ ⟨k, hk, e'⟩
     simp only [kx, ky, kz, KVec.mdspan] at *; omega)
  | (rintro a ⟨i, j, hi, hj, hr, e⟩ ⟨k, hk, e'⟩
     simp only [kx, ky, kz, KVec.mdspan, kA, kB, kC, kE, kT, kW, A, B, C, E, T, W] at *; omega)
  | (rintro a ⟨k, hk, e'⟩ ⟨i, j, hi, hj, hr, e⟩
     simp only [kx, ky, kz, KVec.mdspan, kA, kB, kC, kE, kT, kW, A, B, C, E, T, W] at *; omega)
  | (rintro a ⟨i, j, hi, hj, hr, e⟩ ⟨k, l, hk, hl, hr', e'⟩
     simp only [kA, kB, kC, kE, kT, kW, A, B, C, E, T, W] at *; omega)))

end StdBLAS.Witness

import Mathlib.Analysis.InnerProductSpace.Basic
import Verif.Props.Blas1Reductions
import Verif.Props.Compositions

/-!
# Property C74: the norms are norms

The results of `vector_two_norm`, `vector_abs_sum`, `matrix_inf_norm` and `matrix_one_norm` (with
`init` zero) behave as norms together with the other algorithms.  Exact arithmetic.  The elements
are those of a normed field whose norm is `abs`: real or complex numbers.
-/

namespace StdBLAS
open Finset Witness
variable {α : Type}

theorem sqrt_minkowski (n : Nat) (p q r : Nat → ℝ)
    (hr : ∀ k, 0 ≤ r k) (hpq : ∀ k, k < n → r k ≤ p k + q k) :
    Real.sqrt (∑ k ∈ range n, r k ^ 2) ≤
      Real.sqrt (∑ k ∈ range n, p k ^ 2) + Real.sqrt (∑ k ∈ range n, q k ^ 2) := by
  have hP : 0 ≤ ∑ k ∈ range n, p k ^ 2 := sum_nonneg fun k _ => sq_nonneg _
  have hQ : 0 ≤ ∑ k ∈ range n, q k ^ 2 := sum_nonneg fun k _ => sq_nonneg _
  rw [Real.sqrt_le_left (add_nonneg (Real.sqrt_nonneg _) (Real.sqrt_nonneg _)), add_sq,
    Real.sq_sqrt hP, Real.sq_sqrt hQ]
  have cs := Real.sum_mul_le_sqrt_mul_sqrt (range n) p q
  have h1 : ∑ k ∈ range n, r k ^ 2 ≤ ∑ k ∈ range n, (p k + q k) ^ 2 :=
    sum_le_sum fun k hk => pow_le_pow_left₀ (hr k) (hpq k (mem_range.1 hk)) 2
  have h2 : ∑ k ∈ range n, (p k + q k) ^ 2 =
      ∑ k ∈ range n, p k ^ 2 + 2 * ∑ k ∈ range n, p k * q k + ∑ k ∈ range n, q k ^ 2 := by
    rw [mul_sum, ← sum_add_distrib, ← sum_add_distrib]
    exact sum_congr rfl fun k _ => by ring
  have h3 : 2 * ∑ k ∈ range n, p k * q k ≤
      2 * Real.sqrt (∑ k ∈ range n, p k ^ 2) * Real.sqrt (∑ k ∈ range n, q k ^ 2) := by
    rw [mul_assoc]
    exact mul_le_mul_of_nonneg_left cs (by norm_num)
  linarith

section
variable [NormedField α] [AbsOps α] [LawfulAbs α]

/-! ## Vectors -/

/-- **C74** Cauchy–Schwarz: `|dot(x, y)| ≤ vector_two_norm(x) * vector_two_norm(y)`. -/
theorem C74_cauchy_schwarz (hn : ∀ v : α, AbsOps.abs v = ‖v‖) (x y : VecV α) (h : Heap α)
    (f g : Nat → α) (hx : x.Holds h f) (hy : y.Holds h g) (hxy : x.ext = y.ext) :
    Ends (dot x y 0) h fun r _ => Ends (vectorTwoNorm x 0) h fun nx _ =>
      Ends (vectorTwoNorm y 0) h fun ny _ => ‖r‖ ≤ nx * ny := by
  refine (C01_dot x y 0 h f g hx hy hxy.le).mono fun r _ hr => ?_
  refine (C04_two_norm x 0 h f hx).mono fun nx _ hnx => ?_
  refine (C04_two_norm y 0 h g hy).mono fun ny _ hny => ?_
  rw [hr.1, hnx.1, hny.1, zero_add, zero_add, zero_add, ← hxy]
  simp only [hn]
  calc ‖∑ k ∈ range x.ext, f k * g k‖ ≤ ∑ k ∈ range x.ext, ‖f k‖ * ‖g k‖ :=
        (norm_sum_le _ _).trans_eq (sum_congr rfl fun k _ => norm_mul _ _)
    _ ≤ _ := Real.sum_mul_le_sqrt_mul_sqrt _ _ _

example : Ends (dot (x.view : VecV ℝ) y.view 0) (heap ℝ) fun r _ =>
    Ends (vectorTwoNorm (x.view : VecV ℝ) 0) (heap ℝ) fun nx _ =>
      Ends (vectorTwoNorm (y.view : VecV ℝ) 0) (heap ℝ) fun ny _ => ‖r‖ ≤ nx * ny :=
  C74_cauchy_schwarz (fun _ => rfl) _ _ _ _ _ (holdsV bx) (holdsV by_) rfl

/-- **C74** Cauchy–Schwarz for `dotc` -/
theorem C74_cauchy_schwarz_complex (x y : VecV ℂ) (h : Heap ℂ)
    (f g : Nat → ℂ) (hx : x.Holds h f) (hy : y.Holds h g) (hxy : x.ext = y.ext) :
    Ends (dotc x y 0) h fun r _ => Ends (vectorTwoNorm x 0) h fun nx _ =>
      Ends (vectorTwoNorm y 0) h fun ny _ => ‖r‖ ≤ nx * ny := by
  refine (C02_dotc x y 0 h f g hx hy hxy.le).mono fun r _ hr => ?_
  refine (C04_two_norm x 0 h f hx).mono fun nx _ hnx => ?_
  refine (C04_two_norm y 0 h g hy).mono fun ny _ hny => ?_
  rw [hr.1, hnx.1, hny.1, zero_add, zero_add, zero_add, ← hxy]
  calc ‖∑ k ∈ range x.ext, ConjOps.conj (f k) * g k‖ ≤ ∑ k ∈ range x.ext, ‖f k‖ * ‖g k‖ :=
        (norm_sum_le _ _).trans_eq (sum_congr rfl fun k _ => by
          rw [norm_mul]; congr 1; exact Complex.norm_conj (f k))
    _ ≤ _ := Real.sum_mul_le_sqrt_mul_sqrt _ _ _

example : Ends (dotc (x.view : VecV ℂ) y.view 0) (heap ℂ) fun r _ =>
    Ends (vectorTwoNorm (x.view : VecV ℂ) 0) (heap ℂ) fun nx _ =>
      Ends (vectorTwoNorm (y.view : VecV ℂ) 0) (heap ℂ) fun ny _ => ‖r‖ ≤ nx * ny :=
  C74_cauchy_schwarz_complex _ _ _ _ _ (holdsV bx) (holdsV by_) rfl

/-- **C74** triangle inequality: `vector_two_norm` after `add(x, y, z)`. -/
theorem C74_triangle (hn : ∀ v : α, AbsOps.abs v = ‖v‖) (x y : VecV α) (z : Vec) (h : Heap α)
    (f g : Nat → α) (hx : x.Holds h f) (hy : y.Holds h g) (hz : z.Alloc h)
    (hex : x.ext = z.ext) (hey : y.ext = z.ext) (hu : z.Unique)
    (hax : x.toVec.Aligned z) (hay : y.toVec.Aligned z) :
    Ends (do add1 x y z; vectorTwoNorm z.view 0) h fun nz _ =>
      Ends (vectorTwoNorm x 0) h fun nx _ => Ends (vectorTwoNorm y 0) h fun ny _ =>
        nz ≤ nx + ny := by
  rw [ends_bind]
  refine (C12_add_vector x y z h f g hx hy hz hex.ge hey.ge hu hax hay).mono fun _ h1 hb => ?_
  refine (C04_two_norm z.view 0 h1 _ hb.1.asView).mono fun nz _ hnz => ?_
  refine (C04_two_norm x 0 h f hx).mono fun nx _ hnx => ?_
  refine (C04_two_norm y 0 h g hy).mono fun ny _ hny => ?_
  rw [hnz.1, hnx.1, hny.1, zero_add, zero_add, zero_add, hex, hey]
  simp only [hn]
  exact sqrt_minkowski _ _ _ _ (fun _ => norm_nonneg _) fun k _ => norm_add_le _ _

example : Ends (do add1 (x.view : VecV ℂ) y.view z; vectorTwoNorm z.view 0) (heap ℂ) fun nz _ =>
    Ends (vectorTwoNorm (x.view : VecV ℂ) 0) (heap ℂ) fun nx _ =>
      Ends (vectorTwoNorm (y.view : VecV ℂ) 0) (heap ℂ) fun ny _ => nz ≤ nx + ny :=
  C74_triangle (fun _ => rfl) _ _ _ _ _ _ (holdsV bx) (holdsV by_) (alloc bz) rfl rfl
    (by view_facts) (by view_facts) (by view_facts)

/-- **C74** `vector_two_norm` after `scale(s, x)` is `|s|` times `vector_two_norm` before. -/
theorem C74_scale (hn : ∀ v : α, AbsOps.abs v = ‖v‖) (s : α) (x : Vec) (h : Heap α)
    (f : Nat → α) (hx : x.Holds h f) (hu : x.Unique) :
    Ends (do scale1 s x; vectorTwoNorm x.view 0) h fun n1 _ =>
      Ends (vectorTwoNorm x.view 0) h fun n0 _ => n1 = ‖s‖ * n0 := by
  rw [ends_bind]
  refine (C11_scale_vector s x h f hx hu).mono fun _ h1 hb => ?_
  refine (C04_two_norm x.view 0 h1 _ hb.1.asView).mono fun n1 _ hn1 => ?_
  refine (C04_two_norm x.view 0 h f hx.asView).mono fun n0 _ hn0 => ?_
  rw [hn1.1, hn0.1, zero_add, zero_add]
  simp only [hn, norm_mul, mul_pow]
  rw [← sum_mul, Real.sqrt_mul (sum_nonneg fun k _ => sq_nonneg _),
    Real.sqrt_sq (norm_nonneg s), mul_comm]

example : Ends (do scale1 5 y; vectorTwoNorm y.view 0) (heap ℂ) fun n1 _ =>
    Ends (vectorTwoNorm (y.view : VecV ℂ) 0) (heap ℂ) fun n0 _ => n1 = ‖(5 : ℂ)‖ * n0 :=
  C74_scale (fun _ => rfl) _ _ _ _ (holds by_) (by view_facts)

/-- **C74** only a vector of zeros has `vector_two_norm` zero. -/
theorem C74_zero (hn : ∀ v : α, AbsOps.abs v = ‖v‖) (x : VecV α) (h : Heap α) (f : Nat → α)
    (hx : x.Holds h f) :
    Ends (vectorTwoNorm x 0) h fun r _ => 0 ≤ r ∧ (r = 0 ↔ ∀ i, i < x.ext → f i = 0) := by
  refine (C04_two_norm x 0 h f hx).mono fun r _ hr => ?_
  rw [hr.1, zero_add]
  simp only [hn]
  refine ⟨Real.sqrt_nonneg _, ?_⟩
  rw [Real.sqrt_eq_zero (sum_nonneg fun k _ => sq_nonneg _),
    sum_eq_zero_iff_of_nonneg fun k _ => sq_nonneg _]
  simp only [mem_range, pow_eq_zero_iff (two_ne_zero), norm_eq_zero]

example : Ends (vectorTwoNorm (x.view : VecV ℂ) 0) (heap ℂ) fun r _ =>
    0 ≤ r ∧ (r = 0 ↔ ∀ i, i < 3 → vals ℂ x i = 0) :=
  C74_zero (fun _ => rfl) _ _ _ (holdsV bx)

/-! ## Matrix norms bound products -/

omit [AbsOps α] [LawfulAbs α] in
/-- The bound behind the inequalities for `matrix_inf_norm`. -/
theorem row_bound {n : Nat} {a : Nat → α} {f : Nat → α} {N M : ℝ}
    (hN : ∑ j ∈ range n, ‖a j‖ ≤ N) (hM : ∀ j, j < n → ‖f j‖ ≤ M) (hM0 : 0 ≤ M) :
    ‖∑ j ∈ range n, a j * f j‖ ≤ N * M :=
  calc ‖∑ j ∈ range n, a j * f j‖ ≤ ∑ j ∈ range n, ‖a j‖ * M :=
        (norm_sum_le _ _).trans (sum_le_sum fun j hj => by
          rw [norm_mul]
          exact mul_le_mul_of_nonneg_left (hM j (mem_range.1 hj)) (norm_nonneg _))
    _ = (∑ j ∈ range n, ‖a j‖) * M := (sum_mul _ _ _).symm
    _ ≤ N * M := mul_le_mul_of_nonneg_right hN hM0

theorem inf_norm_facts (hn : ∀ v : α, AbsOps.abs v = ‖v‖) {A : MatV α} {h : Heap α}
    {a : Nat → Nat → α} (hA : A.Holds h a) (h1 : A.rows ≠ 0) (h2 : A.cols ≠ 0) :
    Ends (matrixInfNorm A 0) h fun r _ => (∃ i < A.rows, r = ∑ j ∈ range A.cols, ‖a i j‖) ∧
      ∀ i < A.rows, ∑ j ∈ range A.cols, ‖a i j‖ ≤ r :=
  (C08_inf_norm A 0 h a hA).mono fun _ _ hr => by
    have := hr.2.2 h1 h2
    simp only [hn, zero_add] at this
    exact this

theorem one_norm_facts (hn : ∀ v : α, AbsOps.abs v = ‖v‖) {A : MatV α} {h : Heap α}
    {a : Nat → Nat → α} (hA : A.Holds h a) (h1 : A.rows ≠ 0) (h2 : A.cols ≠ 0) :
    Ends (matrixOneNorm A 0) h fun r _ => (∃ j < A.cols, r = ∑ i ∈ range A.rows, ‖a i j‖) ∧
      ∀ j < A.cols, ∑ i ∈ range A.rows, ‖a i j‖ ≤ r :=
  (C08_one_norm A 0 h a hA).mono fun _ _ hr => by
    have := hr.2.2 h1 h2
    simp only [hn, zero_add] at this
    exact this

/-- **C74** `matrix_inf_norm` bounds `matrix_vector_product`: if no element of `x` exceeds `M`, none
of `A x` exceeds `matrix_inf_norm(A) * M`. -/
theorem C74_inf_norm_product (hn : ∀ v : α, AbsOps.abs v = ‖v‖) (A : MatV α) (x : VecV α) (y : Vec)
    (h : Heap α) (a : Nat → Nat → α) (f : Nat → α) (M : ℝ) (hA : A.Holds h a) (hx : x.Holds h f)
    (hy : y.Alloc h) (hrows : y.ext = A.rows) (hcols : A.cols = x.ext) (hu : y.Unique)
    (hAy : Apart A.toMat.Cell y.Cell) (hxy : Apart x.toVec.Cell y.Cell)
    (hr0 : A.rows ≠ 0) (hne : A.cols ≠ 0) (hM : ∀ j, j < x.ext → ‖f j‖ ≤ M) :
    Ends (matrixInfNorm A 0) h fun nA _ => Ends (gemv A x y) h fun _ h' =>
      ∀ i, i < y.ext → ∃ v, h' (y.addr i) = some v ∧ ‖v‖ ≤ nA * M := by
  refine (inf_norm_facts hn hA hr0 hne).mono fun nA _ hnA => ?_
  refine (C16_gemv A x y h a f hA hx hy hrows hcols.le hu hAy hxy).mono fun _ h' hb => ?_
  intro i hi
  refine ⟨_, hb.1 i hi, row_bound ?_ (fun j hj => hM j (by omega))
    ((norm_nonneg _).trans (hM 0 (by omega)))⟩
  exact hnA.2 i (by omega)

example (M : ℝ) (hM : ∀ j, j < 3 → ‖vals ℂ x j‖ ≤ M) :
    Ends (matrixInfNorm (A.view : MatV ℂ) 0) (heap ℂ) fun nA _ =>
      Ends (gemv (A.view : MatV ℂ) x.view y) (heap ℂ) fun _ h' =>
        ∀ i, i < 3 → ∃ v, h' (y.addr i) = some v ∧ ‖v‖ ≤ nA * M :=
  C74_inf_norm_product (fun _ => rfl) _ _ _ _ _ _ M (mholdsV bA) (holdsV bx) (alloc by_) rfl rfl
    (by view_facts) (by view_facts) (by view_facts) (by decide) (by decide) hM

/-- **C74** `matrix_inf_norm` of a `matrix_product` is at most the product of the
`matrix_inf_norm`s. -/
theorem C74_inf_norm_mul (hn : ∀ v : α, AbsOps.abs v = ‖v‖) (A B : MatV α) (C : Mat) (h : Heap α)
    (a b : Nat → Nat → α) (hA : A.Holds h a) (hB : B.Holds h b) (hC : C.Alloc h)
    (hr : C.rows = A.rows) (hk : A.cols = B.rows) (hc : C.cols = B.cols) (hu : C.Unique)
    (hAC : Apart A.toMat.Cell C.Cell) (hBC : Apart B.toMat.Cell C.Cell)
    (h1 : A.rows ≠ 0) (h2 : A.cols ≠ 0) (h3 : B.cols ≠ 0) :
    Ends (do gemm A B C; matrixInfNorm C.view 0) h fun nC _ =>
      Ends (matrixInfNorm A 0) h fun nA _ => Ends (matrixInfNorm B 0) h fun nB _ =>
        nC ≤ nA * nB := by
  rw [ends_bind]
  refine (C31_gemm A B C h a b hA hB hC hr hk hc hu hAC hBC).mono fun _ h' hb => ?_
  have hC' : (C.view : MatV α).Holds h' _ := hb.1.asView
  have hCr : (C.view : MatV α).rows = A.rows := hr
  have hCc : (C.view : MatV α).cols = B.cols := hc
  refine (inf_norm_facts hn hC' (by omega) (by omega)).mono fun nC _ hnC => ?_
  refine (inf_norm_facts hn hA h1 h2).mono fun nA _ hnA => ?_
  refine (inf_norm_facts hn hB (by omega) h3).mono fun nB _ hnB => ?_
  obtain ⟨⟨i, hi, ei⟩, -⟩ := hnC
  have hAi := hnA.2 i (by omega)
  have hBk := hnB.2
  rw [ei, hCc]
  calc ∑ j ∈ range B.cols, ‖mulMat A.cols a b i j‖
      ≤ ∑ j ∈ range B.cols, ∑ k ∈ range A.cols, ‖a i k‖ * ‖b k j‖ :=
        sum_le_sum fun j _ => (norm_sum_le _ _).trans_eq (sum_congr rfl fun k _ => norm_mul _ _)
    _ = ∑ k ∈ range A.cols, ‖a i k‖ * ∑ j ∈ range B.cols, ‖b k j‖ := by
        rw [sum_comm]
        exact sum_congr rfl fun k _ => (mul_sum _ _ _).symm
    _ ≤ ∑ k ∈ range A.cols, ‖a i k‖ * nB := sum_le_sum fun k hk' =>
        mul_le_mul_of_nonneg_left (hBk k (by have := mem_range.1 hk'; omega)) (norm_nonneg _)
    _ = (∑ k ∈ range A.cols, ‖a i k‖) * nB := (sum_mul _ _ _).symm
    _ ≤ nA * nB := mul_le_mul_of_nonneg_right hAi
        ((sum_nonneg fun j _ => norm_nonneg _).trans (hBk 0 (by omega)))

example : Ends (do gemm (T.view : MatV ℂ) W.view C; matrixInfNorm C.view 0) (heap ℂ) fun nC _ =>
    Ends (matrixInfNorm (T.view : MatV ℂ) 0) (heap ℂ) fun nA _ =>
      Ends (matrixInfNorm (W.view : MatV ℂ) 0) (heap ℂ) fun nB _ => nC ≤ nA * nB :=
  C74_inf_norm_mul (fun _ => rfl) _ _ _ _ _ _ (mholdsV bT) (mholdsV bW) (malloc bC) rfl rfl rfl
    (by view_facts) (by view_facts) (by view_facts) (by decide) (by decide) (by decide)

/-- **C74** `matrix_one_norm` of a `matrix_product` is at most the product of the
`matrix_one_norm`s. -/
theorem C74_one_norm_mul (hn : ∀ v : α, AbsOps.abs v = ‖v‖) (A B : MatV α) (C : Mat) (h : Heap α)
    (a b : Nat → Nat → α) (hA : A.Holds h a) (hB : B.Holds h b) (hC : C.Alloc h)
    (hr : C.rows = A.rows) (hk : A.cols = B.rows) (hc : C.cols = B.cols) (hu : C.Unique)
    (hAC : Apart A.toMat.Cell C.Cell) (hBC : Apart B.toMat.Cell C.Cell)
    (h1 : A.rows ≠ 0) (h2 : A.cols ≠ 0) (h3 : B.cols ≠ 0) :
    Ends (do gemm A B C; matrixOneNorm C.view 0) h fun nC _ =>
      Ends (matrixOneNorm A 0) h fun nA _ => Ends (matrixOneNorm B 0) h fun nB _ =>
        nC ≤ nA * nB := by
  rw [ends_bind]
  refine (C31_gemm A B C h a b hA hB hC hr hk hc hu hAC hBC).mono fun _ h' hb => ?_
  have hC' : (C.view : MatV α).Holds h' _ := hb.1.asView
  have hCr : (C.view : MatV α).rows = A.rows := hr
  have hCc : (C.view : MatV α).cols = B.cols := hc
  refine (one_norm_facts hn hC' (by omega) (by omega)).mono fun nC _ hnC => ?_
  refine (one_norm_facts hn hA h1 h2).mono fun nA _ hnA => ?_
  refine (one_norm_facts hn hB (by omega) h3).mono fun nB _ hnB => ?_
  obtain ⟨⟨j, hj, ej⟩, -⟩ := hnC
  have hBj := hnB.2 j (by omega)
  have hAk := hnA.2
  rw [← hk] at hBj
  rw [ej, hCr]
  calc ∑ i ∈ range A.rows, ‖mulMat A.cols a b i j‖
      ≤ ∑ i ∈ range A.rows, ∑ k ∈ range A.cols, ‖a i k‖ * ‖b k j‖ :=
        sum_le_sum fun i _ => (norm_sum_le _ _).trans_eq (sum_congr rfl fun k _ => norm_mul _ _)
    _ = ∑ k ∈ range A.cols, (∑ i ∈ range A.rows, ‖a i k‖) * ‖b k j‖ := by
        rw [sum_comm]
        exact sum_congr rfl fun k _ => (sum_mul _ _ _).symm
    _ ≤ ∑ k ∈ range A.cols, nA * ‖b k j‖ := sum_le_sum fun k hk' =>
        mul_le_mul_of_nonneg_right (hAk k (mem_range.1 hk')) (norm_nonneg _)
    _ = nA * ∑ k ∈ range A.cols, ‖b k j‖ := (mul_sum _ _ _).symm
    _ ≤ nA * nB := mul_le_mul_of_nonneg_left hBj
        ((sum_nonneg fun j _ => norm_nonneg _).trans (hAk 0 (by omega)))

example : Ends (do gemm (T.view : MatV ℂ) W.view C; matrixOneNorm C.view 0) (heap ℂ) fun nC _ =>
    Ends (matrixOneNorm (T.view : MatV ℂ) 0) (heap ℂ) fun nA _ =>
      Ends (matrixOneNorm (W.view : MatV ℂ) 0) (heap ℂ) fun nB _ => nC ≤ nA * nB :=
  C74_one_norm_mul (fun _ => rfl) _ _ _ _ _ _ (mholdsV bT) (mholdsV bW) (malloc bC) rfl rfl rfl
    (by view_facts) (by view_facts) (by view_facts) (by decide) (by decide) (by decide)

end

/-! ## Real elements: `vector_abs_sum` and `vector_idx_abs_max` -/

/-- **C74** `vector_abs_sum` after `add(x, y, z)` -/
theorem C74_abs_sum_triangle (x y : VecV ℝ) (z : Vec) (h : Heap ℝ)
    (f g : Nat → ℝ) (hx : x.Holds h f) (hy : y.Holds h g) (hz : z.Alloc h)
    (hex : x.ext = z.ext) (hey : y.ext = z.ext) (hu : z.Unique)
    (hax : x.toVec.Aligned z) (hay : y.toVec.Aligned z) :
    Ends (do add1 x y z; vectorAbsSum z.view 0) h fun nz _ =>
      Ends (vectorAbsSum x 0) h fun nx _ => Ends (vectorAbsSum y 0) h fun ny _ =>
        nz ≤ nx + ny := by
  rw [ends_bind]
  refine (C12_add_vector x y z h f g hx hy hz hex.ge hey.ge hu hax hay).mono fun _ h1 hb => ?_
  refine (C05_abs_sum_real z.view 0 h1 _ hb.1.asView).mono fun nz _ hnz => ?_
  refine (C05_abs_sum_real x 0 h f hx).mono fun nx _ hnx => ?_
  refine (C05_abs_sum_real y 0 h g hy).mono fun ny _ hny => ?_
  rw [hnz.1, hnx.1, hny.1, zero_add, zero_add, zero_add, hex, hey, ← sum_add_distrib]
  exact sum_le_sum fun k _ => abs_add_le _ _

example : Ends (do add1 (x.view : VecV ℝ) y.view z; vectorAbsSum z.view 0) (heap ℝ) fun nz _ =>
    Ends (vectorAbsSum (x.view : VecV ℝ) 0) (heap ℝ) fun nx _ =>
      Ends (vectorAbsSum (y.view : VecV ℝ) 0) (heap ℝ) fun ny _ => nz ≤ nx + ny :=
  C74_abs_sum_triangle _ _ _ _ _ _ (holdsV bx) (holdsV by_) (alloc bz) rfl rfl
    (by view_facts) (by view_facts) (by view_facts)

/-- **C74** `vector_abs_sum` of a `matrix_vector_product` is at most
`matrix_one_norm(A) * vector_abs_sum(x)`. -/
theorem C74_one_norm_product (A : MatV ℝ) (x : VecV ℝ) (y : Vec)
    (h : Heap ℝ) (a : Nat → Nat → ℝ) (f : Nat → ℝ) (hA : A.Holds h a) (hx : x.Holds h f)
    (hy : y.Alloc h) (hrows : y.ext = A.rows) (hcols : A.cols = x.ext) (hu : y.Unique)
    (hAy : Apart A.toMat.Cell y.Cell) (hxy : Apart x.toVec.Cell y.Cell) (hne : A.rows ≠ 0)
    (hc0 : A.cols ≠ 0) :
    Ends (do gemv A x y; vectorAbsSum y.view 0) h fun ny _ =>
      Ends (matrixOneNorm A 0) h fun nA _ => Ends (vectorAbsSum x 0) h fun nx _ =>
        ny ≤ nA * nx := by
  rw [ends_bind]
  refine (C16_gemv A x y h a f hA hx hy hrows hcols.le hu hAy hxy).mono fun _ h' hb => ?_
  refine (C05_abs_sum_real y.view 0 h' _ hb.1.asView).mono fun ny _ hny => ?_
  refine (one_norm_facts (fun _ => rfl) hA hne hc0).mono fun nA _ hnA => ?_
  refine (C05_abs_sum_real x 0 h f hx).mono fun nx _ hnx => ?_
  have hAk : ∀ j, j < A.cols → ∑ i ∈ range A.rows, |a i j| ≤ nA := hnA.2
  have hye : (y.view : VecV ℝ).ext = A.rows := hrows
  rw [hny.1, hnx.1, zero_add, zero_add, hye, ← hcols]
  calc ∑ i ∈ range A.rows, |∑ j ∈ range A.cols, a i j * f j|
      ≤ ∑ i ∈ range A.rows, ∑ j ∈ range A.cols, |a i j| * |f j| :=
        sum_le_sum fun i _ => (abs_sum_le_sum_abs _ _).trans_eq
          (sum_congr rfl fun j _ => abs_mul _ _)
    _ = ∑ j ∈ range A.cols, (∑ i ∈ range A.rows, |a i j|) * |f j| := by
        rw [sum_comm]
        exact sum_congr rfl fun j _ => (sum_mul _ _ _).symm
    _ ≤ ∑ j ∈ range A.cols, nA * |f j| := sum_le_sum fun j hj =>
        mul_le_mul_of_nonneg_right (hAk j (mem_range.1 hj)) (abs_nonneg _)
    _ = nA * ∑ j ∈ range A.cols, |f j| := (mul_sum _ _ _).symm

example : Ends (do gemv (A.view : MatV ℝ) x.view y; vectorAbsSum y.view 0) (heap ℝ) fun ny _ =>
    Ends (matrixOneNorm (A.view : MatV ℝ) 0) (heap ℝ) fun nA _ =>
      Ends (vectorAbsSum (x.view : VecV ℝ) 0) (heap ℝ) fun nx _ => ny ≤ nA * nx :=
  C74_one_norm_product _ _ _ _ _ _ (mholdsV bA) (holdsV bx) (alloc by_) rfl rfl
    (by view_facts) (by view_facts) (by view_facts) (by decide) (by decide)

/-- **C74** the largest element of `A x`, found by `vector_idx_abs_max`, is at most
`matrix_inf_norm(A)` times the largest of `x`. -/
theorem C74_inf_norm_idx_abs_max (sizeMax : Nat) (A : MatV ℝ) (x : VecV ℝ) (y : Vec)
    (h : Heap ℝ) (a : Nat → Nat → ℝ) (f : Nat → ℝ) (hA : A.Holds h a) (hx : x.Holds h f)
    (hy : y.Alloc h) (hrows : y.ext = A.rows) (hcols : A.cols = x.ext) (hu : y.Unique)
    (hAy : Apart A.toMat.Cell y.Cell) (hxy : Apart x.toVec.Cell y.Cell) (hr0 : A.rows ≠ 0)
    (hc0 : A.cols ≠ 0) :
    Ends (vectorIdxAbsMax sizeMax x) h fun jx _ => Ends (matrixInfNorm A 0) h fun nA _ =>
      Ends (gemv A x y) h fun _ h' => Ends (vectorIdxAbsMax sizeMax y.view) h' fun iy _ =>
        ∃ v, h' (y.addr iy) = some v ∧ |v| ≤ nA * |f jx| := by
  refine (C06_idx_abs_max_real sizeMax x h f hx (by omega)).mono fun jx _ hjx => ?_
  refine (inf_norm_facts (fun _ => rfl) hA hr0 hc0).mono fun nA _ hnA => ?_
  refine (C16_gemv A x y h a f hA hx hy hrows hcols.le hu hAy hxy).mono fun _ h' hb => ?_
  have hye : (y.view : VecV ℝ).ext = A.rows := hrows
  refine (C06_idx_abs_max_real sizeMax y.view h' _ hb.1.asView (by omega)).mono fun iy _ hiy => ?_
  refine ⟨_, hb.1 iy hiy.1.1, ?_⟩
  exact row_bound (hnA.2 iy (by have := hiy.1.1; omega)) (fun j hj => hjx.1.2.1 j (by omega)) (abs_nonneg _)

example : Ends (vectorIdxAbsMax 255 (x.view : VecV ℝ)) (heap ℝ) fun jx _ =>
    Ends (matrixInfNorm (A.view : MatV ℝ) 0) (heap ℝ) fun nA _ =>
      Ends (gemv (A.view : MatV ℝ) x.view y) (heap ℝ) fun _ h' =>
        Ends (vectorIdxAbsMax 255 y.view) h' fun iy _ =>
          ∃ v, h' (y.addr iy) = some v ∧ |v| ≤ nA * |vals ℝ x jx| :=
  C74_inf_norm_idx_abs_max _ _ _ _ _ _ _ (mholdsV bA) (holdsV bx) (alloc by_) rfl rfl
    (by view_facts) (by view_facts) (by view_facts) (by decide) (by decide)

/-- **C74** `matrix_inf_norm` is the best such bound: there are signs for the elements of `x` for
which `A x` has an element of magnitude `matrix_inf_norm(A)`. -/
theorem C74_inf_norm_attained (A : MatV ℝ) (h : Heap ℝ) (a : Nat → Nat → ℝ) (hA : A.Holds h a)
    (hr0 : A.rows ≠ 0) (hc0 : A.cols ≠ 0) :
    Ends (matrixInfNorm A 0) h fun nA _ => ∃ f : Nat → ℝ, (∀ j, f j = 1 ∨ f j = -1) ∧
      ∀ (x : VecV ℝ) (y : Vec), x.Holds h f → y.Alloc h → y.ext = A.rows → A.cols = x.ext →
        y.Unique → Apart A.toMat.Cell y.Cell → Apart x.toVec.Cell y.Cell →
        Ends (gemv A x y) h fun _ h' => ∃ i, i < y.ext ∧ h' (y.addr i) = some nA := by
  refine (inf_norm_facts (fun _ => rfl) hA hr0 hc0).mono fun nA _ hnA => ?_
  obtain ⟨⟨i, hi, e⟩, -⟩ := hnA
  refine ⟨fun j => if 0 ≤ a i j then 1 else -1, fun j => by beta_reduce; split_ifs <;> simp, ?_⟩
  intro x y hx hy hrows hcols hu hAy hxy
  refine (C16_gemv A x y h a _ hA hx hy hrows hcols.le hu hAy hxy).mono fun _ h' hb => ?_
  refine ⟨i, by omega, ?_⟩
  rw [hb.1 i (by omega), e]
  refine congrArg some (sum_congr rfl fun j _ => ?_)
  by_cases h0 : 0 ≤ a i j
  · rw [if_pos h0, mul_one, Real.norm_of_nonneg h0]
  · rw [if_neg h0, Real.norm_of_nonpos (by linarith)]
    ring1

example : Ends (matrixInfNorm (A.view : MatV ℝ) 0) (heap ℝ) fun nA _ =>
    ∃ f : Nat → ℝ, (∀ j, f j = 1 ∨ f j = -1) ∧
      ∀ x : VecV ℝ, x.Holds (heap ℝ) f → 3 = x.ext → Apart x.toVec.Cell y.Cell →
        Ends (gemv (A.view : MatV ℝ) x y) (heap ℝ) fun _ h' =>
          ∃ i, i < 3 ∧ h' (y.addr i) = some nA :=
  (C74_inf_norm_attained _ _ _ (mholdsV bA) (by decide) (by decide)).mono fun _ _ ⟨f, hf, H⟩ =>
    ⟨f, hf, fun x hx he hxy => H x y hx (alloc by_) rfl he (by view_facts) (by view_facts) hxy⟩

end StdBLAS

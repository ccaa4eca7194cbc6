import Verif.Model.Views
import Verif.Props.Views
import Verif.Props.Blas1Reductions
import Verif.Props.Blas2Products
import Verif.Props.Blas2Solve
import Verif.Props.Blas3Products
import Verif.Props.Blas3Solve

/-!
# Algorithms on views: C42
-/

namespace StdBLAS
open Finset Witness
variable {α : Type}

/-! ## Specification: nestings of views with one element type -/

/-- A nesting of the view functions on a matrix (one element type). -/
inductive MView (α : Type) where
  | base
  | scaled (s : α) (v : MView α)
  | conjugated (v : MView α)
  | transposed (v : MView α)
  | conjugateTransposed (v : MView α)

namespace MView

/-- Calling the library's functions from the inside out. -/
def eval [Mul α] [ConjOps α] (A : MatV α) : MView α → MatV α
  | base => A
  | scaled s v => (v.eval A).scaled s
  | conjugated v => (v.eval A).conjugated
  | transposed v => (v.eval A).transposed
  | conjugateTransposed v => (v.eval A).conjugateTransposed

/-- The matrix that the nesting denotes. -/
def denote [Mul α] [ConjOps α] (a : Nat → Nat → α) : MView α → Nat → Nat → α
  | base => a
  | scaled s v => fun i j => s * v.denote a i j
  | conjugated v => fun i j => ConjOps.conj (v.denote a i j)
  | transposed v => fun i j => v.denote a j i
  | conjugateTransposed v => fun i j => ConjOps.conj (v.denote a j i)

end MView

/-- Every nesting of views holds the matrix that it denotes. -/
theorem MView.holds [Mul α] [ConjOps α] {A : MatV α} {h : Heap α} {a : Nat → Nat → α}
    (hA : A.Holds h a) (v : MView α) : (v.eval A).Holds h (v.denote a) := by
  induction v with
  | base => exact hA
  | scaled s v ih =>
    intro i j hi hj _
    obtain ⟨w, hw, e⟩ := ih i j hi hj trivial
    exact ⟨w, hw, by simp [MView.eval, MView.denote, MatV.scaled, e]⟩
  | conjugated v ih =>
    intro i j hi hj _
    obtain ⟨w, hw, e⟩ := ih i j hi hj trivial
    exact ⟨w, hw, by simp [MView.eval, MView.denote, MatV.conjugated, e]⟩
  | transposed v ih =>
    intro i j hi hj _
    obtain ⟨w, hw, e⟩ := ih j i hj hi trivial
    exact ⟨w, hw, e⟩
  | conjugateTransposed v ih =>
    intro i j hi hj _
    obtain ⟨w, hw, e⟩ := ih j i hj hi trivial
    exact ⟨w, hw, congrArg ConjOps.conj e⟩

/-- A view has the cells of the matrix it is a view of. -/
theorem MView.cell_iff [Mul α] [ConjOps α] {A : MatV α} (v : MView α) (c : Nat) :
    (v.eval A).toMat.Cell c ↔ A.toMat.Cell c := by
  have tr : ∀ B : MatV α, B.transposed.toMat.Cell c ↔ B.toMat.Cell c := by
    intro B
    constructor <;> rintro ⟨i, j, hi, hj, _, e⟩ <;> exact ⟨j, i, hj, hi, trivial, e⟩
  induction v with
  | base => rfl
  | scaled s v ih => exact ih
  | conjugated v ih => exact ih
  | transposed v ih => exact (tr _).trans ih
  | conjugateTransposed v ih => exact (tr _).trans ih

/-! ## The views of `Model/Accessors.lean` and of `Model/Views.lean` agree

`MatV` (used by the algorithms) summarises data handle, mapping and accessor by the address and
the value read. -/

/-- The `MatV` of an mdspan whose element type is that of the memory. -/
def Mdspan2.toMatV {σ : ElemTy} (V : Mdspan2 σ σ) : MatV σ.carrier :=
  { V.map.mat V.ptr with acc := V.acc.value }

theorem Accessor.ends_access {σ β : ElemTy} (a : Accessor σ β) (p i : Nat) (h : Heap σ.carrier)
    (Q : β.carrier → Heap σ.carrier → Prop) :
    Ends (a.access p i) h Q ↔ ∃ w, h (p + i) = some w ∧ Q (a.value w) h := by
  induction a with
  | default => simp [Accessor.access, Accessor.value]
  | scaled mul s a ih => simp [Accessor.access, Accessor.value, ih]
  | conjugated a ih => simp [Accessor.access, Accessor.value, ih, conjIfNeeded_eq]

/-- Reading gives the same outcome for every memory and index. -/
theorem C42_toMatV_get {σ : ElemTy} (V : Mdspan2 σ σ) (i j : Nat) (h : Heap σ.carrier)
    (Q : σ.carrier → Heap σ.carrier → Prop) :
    Ends (V.get i j) h Q ↔ Ends (V.toMatV.get i j) h Q := by
  rw [ends_matV_get]
  unfold Mdspan2.get
  by_cases hij : i < V.map.ext0 ∧ j < V.map.ext1
  · rw [if_pos hij, Accessor.ends_access]
    exact ⟨fun q => ⟨hij, q⟩, fun q => q.2⟩
  · rw [if_neg hij]
    simp only [ends_fail, false_iff]
    exact fun q => hij q.1

/-- The view functions agree. -/
theorem C42_toMatV_views {σ : ElemTy} (c : Config) (V : Mdspan2 σ σ) [Mul σ.carrier] (s : σ.carrier)
    [ConjOps σ.carrier] (hc : ∀ x : σ.carrier, ConjOps.conj x = σ.conjIfNeeded x) :
    (V.scaled (γ := σ) (fun s x : σ.carrier => s * x) s).toMatV = V.toMatV.scaled s ∧
    (V.conjugated c).toMatV = V.toMatV.conjugated ∧
    ∀ W, V.transposed c = .ok W → IsTransposeOf W.map V.map →
      W.toMatV.rows = V.toMatV.transposed.rows ∧ W.toMatV.cols = V.toMatV.transposed.cols ∧
      W.toMatV.acc = V.toMatV.transposed.acc ∧
      ∀ i j, i < W.toMatV.rows → j < W.toMatV.cols →
        W.toMatV.addr i j = V.toMatV.transposed.addr i j := by
  refine ⟨rfl, ?_, fun W hW hT => ?_⟩
  · have e : (V.acc.conj c.fixConjugated).value = fun v => ConjOps.conj (V.acc.value v) := by
      funext v
      rw [Accessor.value_conj, hc, conjIfNeeded_eq]
    show (⟨V.map.mat V.ptr, (V.acc.conj c.fixConjugated).value⟩ : MatV σ.carrier) =
      ⟨V.map.mat V.ptr, fun v => ConjOps.conj (V.acc.value v)⟩
    rw [e]
  · have hp : W.ptr = V.ptr ∧ W.acc = V.acc := by
      unfold Mdspan2.transposed at hW
      split at hW
      · injection hW with hW
        subst hW
        exact ⟨rfl, rfl⟩
      · cases hW
    refine ⟨hT.ext0, hT.ext1, ?_, fun i j hi hj => ?_⟩
    · show W.acc.value = V.acc.value
      rw [hp.2]
    · show W.ptr + W.map.offset i j = V.ptr + V.map.offset j i
      rw [hp.1, hT.offset i j hi hj]

theorem Vec.Becomes.unique {y : Vec} {h h1 h2 : Heap α} {f g : Nat → α} (b1 : y.Becomes h h1 f)
    (b2 : y.Becomes h h2 g) (e : ∀ i, i < y.ext → f i = g i) : h1 = h2 := by
  funext a
  by_cases ha : y.Cell a
  · obtain ⟨i, hi, rfl⟩ := ha
    rw [b1.1 i hi, b2.1 i hi, e i hi]
  · rw [b1.2 a ha, b2.2 a ha]

theorem Mat.Becomes.unique {C : Mat} {h h1 h2 : Heap α} {f g : Nat → Nat → α}
    (b1 : C.Becomes h h1 f) (b2 : C.Becomes h h2 g)
    (e : ∀ i j, i < C.rows → j < C.cols → f i j = g i j) : h1 = h2 := by
  funext a
  by_cases ha : C.Cell a
  · obtain ⟨i, j, hi, hj, _, rfl⟩ := ha
    rw [b1.1 i j hi hj trivial, b2.1 i j hi hj trivial, e i j hi hj]
  · rw [b1.2 a ha, b2.2 a ha]

/-! ## C42: the same as on a materialised matrix

The element operations are arbitrary (also rounded arithmetic): the two runs end in the same
memory, bit for bit. -/

/-- **C42** `matrix_vector_product(v(A), x, y)` for any nesting `v` of views and
`matrix_vector_product(M, x, y)` for a plain matrix `M` that stores the elements that `v(A)`
denotes end in the same memory. -/
theorem C42_gemv_materialised [Add α] [Mul α] [Zero α] [ConjOps α] (v : MView α) (A : MatV α)
    (M : Mat) (x : VecV α) (y : Vec) (h : Heap α) (a : Nat → Nat → α) (f : Nat → α)
    (hA : A.Holds h a) (hM : M.Holds h (v.denote a)) (hx : x.Holds h f) (hy : y.Alloc h)
    (hMr : M.rows = (v.eval A).rows) (hMc : M.cols = (v.eval A).cols)
    (hrows : y.ext = M.rows) (hcols : M.cols ≤ x.ext) (hu : y.Unique)
    (hAy : Apart A.toMat.Cell y.Cell) (hMy : Apart M.Cell y.Cell)
    (hxy : Apart x.toVec.Cell y.Cell) :
    Ends (gemv (v.eval A) x y) h fun _ h1 => Ends (gemv M.view x y) h fun _ h2 => h1 = h2 := by
  refine (gemv_fold (v.eval A) x y h _ f (v.holds hA) hx hy (by omega) (by omega) hu
    (fun c hc => hAy c ((v.cell_iff c).1 hc)) hxy).mono fun _ h1 hb1 => ?_
  refine (gemv_fold (M.view : MatV α) x y h _ f hM.viewHolds hx hy hrows hcols hu hMy hxy).mono
    fun _ h2 hb2 => ?_
  refine hb1.unique hb2 fun i _ => ?_
  rw [show (M.view : MatV α).cols = (v.eval A).cols from hMc]

/-- **C42** the same for `matrix_product`, with views on both factors. -/
theorem C42_gemm_materialised [Add α] [Mul α] [Zero α] [ConjOps α] (v w : MView α) (A B : MatV α)
    (M N C : Mat) (h : Heap α) (a b : Nat → Nat → α) (hA : A.Holds h a) (hB : B.Holds h b)
    (hM : M.Holds h (v.denote a)) (hN : N.Holds h (w.denote b)) (hC : C.Alloc h)
    (hMr : M.rows = (v.eval A).rows) (hMc : M.cols = (v.eval A).cols)
    (hNr : N.rows = (w.eval B).rows) (hNc : N.cols = (w.eval B).cols)
    (hr : C.rows = M.rows) (hk : M.cols = N.rows) (hc : C.cols = N.cols) (hu : C.Unique)
    (hAC : Apart A.toMat.Cell C.Cell) (hBC : Apart B.toMat.Cell C.Cell)
    (hMC : Apart M.Cell C.Cell) (hNC : Apart N.Cell C.Cell) :
    Ends (gemm (v.eval A) (w.eval B) C) h fun _ h1 =>
      Ends (gemm M.view N.view C) h fun _ h2 => h1 = h2 := by
  refine (gemm_fold (v.holds hA) (w.holds hB) hC (by omega) (by omega) (by omega) hu
    (fun c hc => hAC c ((v.cell_iff c).1 hc)) (fun c hc => hBC c ((w.cell_iff c).1 hc))).mono
    fun _ h1 hb1 => ?_
  refine (gemm_fold (A := M.view) (B := N.view) hM.viewHolds hN.viewHolds hC hr.le hk.le hc.le hu
    hMC hNC).mono fun _ h2 hb2 => ?_
  refine hb1.unique hb2 fun i j _ _ => ?_
  rw [show (M.view : MatV α).cols = (v.eval A).cols from hMc]

/-- **C42** the same for the triangular solve. -/
theorem C42_trsv_materialised [Sub α] [Mul α] [ConjOps α] (divide : α → α → α) (v : MView α)
    (A : MatV α) (M : Mat) (t : Triangle) (d : Diag) (b : VecV α) (x : Vec) (h : Heap α)
    (a : Nat → Nat → α) (g : Nat → α) (hA : A.Holds h a) (hM : M.Holds h (v.denote a))
    (hb : b.Holds h g) (hx : x.Alloc h) (hMr : M.rows = (v.eval A).rows)
    (hMc : M.cols = (v.eval A).cols) (hsq : M.rows = M.cols) (hext : M.rows = x.ext)
    (hbe : M.rows ≤ b.ext) (hu : x.Unique) (hAx : Apart A.toMat.Cell x.Cell)
    (hMx : Apart M.Cell x.Cell) (hbx : b.toVec.Aligned x) :
    Ends (trsv divide (v.eval A) t d b x) h fun _ h1 =>
      Ends (trsv divide M.view t d b x) h fun _ h2 => h1 = h2 := by
  refine (trsv_fold divide (A := v.eval A)
    (fun i j hi hj _ => v.holds hA i j hi hj trivial) hb hx (by omega) (by omega) (by omega) hu
    (fun c hc => hAx c ((v.cell_iff c).1 ?_)) hbx).mono ?_
  · obtain ⟨i, j, hi, hj, _, e⟩ := hc
    exact ⟨i, j, hi, hj, trivial, e⟩
  rintro _ h1 ⟨u, hu1, eu⟩
  refine (trsv_fold divide (A := M.view) (a := v.denote a)
    (fun i j hi hj _ => hM.viewHolds i j hi hj trivial) hb hx hsq hext hbe hu
    (fun c hc => hMx c ?_) hbx).mono ?_
  · obtain ⟨i, j, hi, hj, _, e⟩ := hc
    exact ⟨i, j, hi, hj, trivial, e⟩
  rintro _ h2 ⟨w, hw1, ew⟩
  have e1 : (M.view : MatV α).cols = (v.eval A).cols := hMc
  have e2 : (M.view : MatV α).rows = (v.eval A).rows := hMr
  rw [e1, e2] at ew
  have hs : (v.eval A).rows = (v.eval A).cols := by omega
  rw [hs] at eu ew
  refine hu1.unique hw1 fun i hi => ?_
  exact subRow_unique eu ew i (by omega)

/-- **C42** `dot` with any accessors depends only on the elements that the views denote. -/
theorem C42_dot_materialised [Add α] [Mul α] (x y : VecV α) (x' y' : Vec) (init : α) (h : Heap α)
    (f g : Nat → α) (hx : x.Holds h f) (hy : y.Holds h g) (hx' : x'.Holds h f) (hy' : y'.Holds h g)
    (ex : x'.ext = x.ext) (ey : y'.ext = y.ext) (hxy : x.ext ≤ y.ext) :
    Ends (dot x y init) h fun r h1 => Ends (dot x'.view y'.view init) h fun r' h2 =>
      r = r' ∧ h1 = h2 := by
  refine (dot_fold x y init h f g hx hy hxy).mono ?_
  rintro r h1 ⟨rfl, rfl⟩
  refine (dot_fold x'.view y'.view init h1 f g (fun i hi => ⟨_, hx' i hi, rfl⟩)
    (fun i hi => ⟨_, hy' i hi, rfl⟩) (by
      show x'.ext ≤ y'.ext
      omega)).mono ?_
  rintro r h2 ⟨rfl, rfl⟩
  refine ⟨?_, rfl⟩
  rw [show (x'.view : VecV α).ext = x.ext from ex]

/-! ## C42: what the results are -/

/-- **C42** `matrix_vector_product(scaled(s, A), x, y)` gives `s (A x)`. -/
theorem C42_gemv_scaled [NonUnitalSemiring α] (s : α) (A : MatV α) (x : VecV α) (y : Vec)
    (h : Heap α) (a : Nat → Nat → α) (f : Nat → α) (hA : A.Holds h a) (hx : x.Holds h f)
    (hy : y.Alloc h) (hrows : y.ext = A.rows) (hcols : A.cols ≤ x.ext) (hu : y.Unique)
    (hAy : Apart A.toMat.Cell y.Cell) (hxy : Apart x.toVec.Cell y.Cell) :
    Ends (gemv (A.scaled s) x y) h fun _ h' =>
      y.Becomes h h' fun i => s * ∑ j ∈ range A.cols, a i j * f j := by
  have hS : (A.scaled s).Holds h fun i j => s * a i j := by
    intro i j hi hj _
    obtain ⟨w, hw, e⟩ := hA i j hi hj trivial
    exact ⟨w, hw, by simp [MatV.scaled, e]⟩
  refine (C16_gemv (A.scaled s) x y h _ f hS hx hy hrows hcols hu hAy hxy).mono fun _ h' hb => ?_
  refine hb.congr fun i _ => ?_
  rw [mul_sum]
  exact sum_congr rfl fun j _ => mul_assoc _ _ _

/-- **C42** `matrix_vector_product(transposed(A), x, y)` gives `Aᵀ x`. -/
theorem C42_gemv_transposed [NonUnitalNonAssocSemiring α] (A : MatV α) (x : VecV α) (y : Vec)
    (h : Heap α) (a : Nat → Nat → α) (f : Nat → α) (hA : A.Holds h a) (hx : x.Holds h f)
    (hy : y.Alloc h) (hrows : y.ext = A.cols) (hcols : A.rows ≤ x.ext) (hu : y.Unique)
    (hAy : Apart A.toMat.Cell y.Cell) (hxy : Apart x.toVec.Cell y.Cell) :
    Ends (gemv A.transposed x y) h fun _ h' =>
      y.Becomes h h' fun j => ∑ i ∈ range A.rows, a i j * f i := by
  refine C16_gemv A.transposed x y h (fun i j => a j i) f ?_ hx hy hrows hcols hu ?_ hxy
  · exact fun i j hi hj _ => hA j i hj hi trivial
  · rintro c ⟨i, j, hi, hj, _, e⟩
    exact hAy c ⟨j, i, hj, hi, trivial, e⟩

/-- **C42** `matrix_vector_product(conjugate_transposed(A), x, y)` gives `Aᴴ x`. -/
theorem C42_gemv_conjugate_transposed (A : MatV ℂ) (x : VecV ℂ) (y : Vec)
    (h : Heap ℂ) (a : Nat → Nat → ℂ) (f : Nat → ℂ) (hA : A.Holds h a) (hx : x.Holds h f)
    (hy : y.Alloc h) (hrows : y.ext = A.cols) (hcols : A.rows ≤ x.ext) (hu : y.Unique)
    (hAy : Apart A.toMat.Cell y.Cell) (hxy : Apart x.toVec.Cell y.Cell) :
    Ends (gemv A.conjugateTransposed x y) h fun _ h' =>
      y.Becomes h h' fun j => ∑ i ∈ range A.rows, (starRingEnd ℂ) (a i j) * f i := by
  refine C16_gemv A.conjugateTransposed x y h (fun i j => (starRingEnd ℂ) (a j i)) f ?_ hx hy
    hrows hcols hu ?_ hxy
  · intro i j hi hj _
    obtain ⟨w, hw, e⟩ := hA j i hj hi trivial
    exact ⟨w, hw, congrArg (fun z : ℂ => (starRingEnd ℂ) z) e⟩
  · rintro c ⟨i, j, hi, hj, _, e⟩
    exact hAy c ⟨j, i, hj, hi, trivial, e⟩

/-- **C42** `(A B)ᵀ = Bᵀ Aᵀ`: `matrix_product(transposed(B), transposed(A), transposed(C))` leaves
the product `A B` in `C`. -/
theorem C42_gemm_transposed [NonUnitalCommSemiring α] (A B : MatV α) (C : Mat) (h : Heap α)
    (a b : Nat → Nat → α) (hA : A.Holds h a) (hB : B.Holds h b) (hC : C.Alloc h)
    (hr : C.rows = A.rows) (hk : A.cols = B.rows) (hc : C.cols = B.cols) (hu : C.Unique)
    (hAC : Apart A.toMat.Cell C.Cell) (hBC : Apart B.toMat.Cell C.Cell) :
    Ends (gemm B.transposed A.transposed C.transposed) h fun _ h' =>
      C.Becomes h h' (mulMat A.cols a b) := by
  have tr : ∀ (M : Mat) c, M.transposed.Cell c → M.Cell c := by
    rintro M c ⟨i, j, hi, hj, _, e⟩
    exact ⟨j, i, hj, hi, trivial, e⟩
  refine (C31_gemm B.transposed A.transposed C.transposed h (fun i j => b j i) (fun i j => a j i)
    (fun i j hi hj _ => hB j i hj hi trivial) (fun i j hi hj _ => hA j i hj hi trivial)
    (fun i j hi hj _ => hC j i hj hi trivial) hc hk.symm hr
    (fun i j k l hi hj _ hk hl _ e => (hu j i l k hj hi trivial hl hk trivial e).symm)
    (fun c h1 h2 => hBC c (tr _ c h1) (tr _ c h2))
    (fun c h1 h2 => hAC c (tr _ c h1) (tr _ c h2))).mono fun _ h' hb => ?_
  refine ⟨fun i j hi hj _ => ?_, fun c hc => hb.2 c fun q => hc (tr _ c q)⟩
  have := hb.1 j i hj hi trivial
  refine this.trans (congrArg some ?_)
  unfold mulMat
  rw [hk]
  exact sum_congr rfl fun k _ => mul_comm _ _

/-- **C42** `dot(scaled(s, x), y) = s * dot(x, y)`. -/
theorem C42_dot_scaled [NonUnitalSemiring α] (s : α) (x y : VecV α) (h : Heap α) (f g : Nat → α)
    (hx : x.Holds h f) (hy : y.Holds h g) (hxy : x.ext ≤ y.ext) :
    Ends (dot0 (x.scaled s) y) h fun r h' => r = s * ∑ k ∈ range x.ext, f k * g k ∧ h' = h := by
  have hS : (x.scaled s).Holds h fun k => s * f k := by
    intro i hi
    obtain ⟨w, hw, e⟩ := hx i hi
    exact ⟨w, hw, by simp [VecV.scaled, e]⟩
  refine (C01_dot_no_init (x.scaled s) y h _ g hS hy hxy).mono ?_
  rintro r h' ⟨rfl, rfl⟩
  refine ⟨?_, rfl⟩
  rw [mul_sum]
  exact sum_congr rfl fun j _ => mul_assoc _ _ _

theorem triRegion_other {t : Triangle} {d : Diag} {i j : Nat} :
    triRegion t.other d i j ↔ triRegion t d j i := by
  unfold triRegion
  cases t <;> simp only [Triangle.other, Triangle.region, ne_comm]

theorem triOf_other [Zero α] [One α] {t : Triangle} {d : Diag} {a : Nat → Nat → α} {i j : Nat} :
    triOf t.other d (fun i j => a j i) i j = triOf t d a j i := by
  unfold triOf
  by_cases e : i = j
  · subst e; simp
  · have e' : ¬ j = i := fun q => e q.symm
    have hr : t.other.region i j ↔ t.region j i := by cases t <;> rfl
    simp only [if_neg e, if_neg e']
    by_cases q : t.region j i
    · simp only [if_pos q, if_pos (hr.2 q)]
    · simp only [if_neg q, if_neg (fun w => q (hr.1 w))]

/-- **C42** a triangular solve on `transposed(A)`, naming the other triangle, solves the transposed
system; only the triangle of `A` need be accessible. -/
theorem C42_trsv_transposed [Field α] (A : MatV α) (t : Triangle) (d : Diag)
    (b : VecV α) (x : Vec) (h : Heap α) (a : Nat → Nat → α) (g : Nat → α)
    (hA : A.HoldsOn h (triRegion t d) a) (hb : b.Holds h g) (hx : x.Alloc h)
    (hsq : A.rows = A.cols) (hext : A.rows = x.ext) (hbe : A.rows ≤ b.ext) (hu : x.Unique)
    (hAx : Apart (A.toMat.CellOn (triRegion t d)) x.Cell) (hbx : b.toVec.Aligned x)
    (hnz : d = .explicit → ∀ i, i < A.rows → a i i ≠ 0) :
    Ends (trsv (· / ·) A.transposed t.other d b x) h fun _ h' => ∃ v, x.Becomes h h' v ∧
      ∀ i, i < A.rows → ∑ k ∈ range A.rows, triOf t d a k i * v k = g i := by
  refine (C21_trsv_field A.transposed t.other d b x h (fun i j => a j i) g ?_ hb hx hsq.symm
    (by rw [← hext, hsq]; rfl) (by show A.cols ≤ b.ext; omega) hu ?_ hbx ?_).mono ?_
  · intro i j hi hj hr
    exact hA j i hj hi (triRegion_other.1 hr)
  · rintro c ⟨i, j, hi, hj, hr, e⟩
    exact hAx c ⟨j, i, hj, hi, triRegion_other.1 hr, e⟩
  · intro hd i hi
    exact hnz hd i (by rw [hsq]; exact hi)
  · rintro _ h' ⟨v, hv, e, _⟩
    refine ⟨v, hv, fun i hi => ?_⟩
    rw [← e i (by rw [hsq] at hi; exact hi)]
    unfold mulVec
    exact sum_congr rfl fun k _ => by rw [triOf_other]

/-! ### Concrete cases -/

/-- `conjugate_transposed(W)` (W is 2×3) times a 2-vector, complex. -/
example : Ends (gemv ((W.view : MatV ℂ).conjugateTransposed) ⟨⟨2, x.addr⟩, id⟩ y) (heap ℂ)
    fun _ h' => y.Becomes (heap ℂ) h' fun j =>
      ∑ i ∈ range 2, (starRingEnd ℂ) (mvals ℂ W i j) * vals ℂ x i :=
  C42_gemv_conjugate_transposed _ _ _ _ _ _ (mholdsV bW)
    (fun i hi => holdsV bx i (Nat.lt_of_lt_of_le (show i < 2 from hi) (by decide))) (alloc by_) rfl
    le_rfl
    (by view_facts) (by view_facts) (by view_facts)

/-- The transposed scaled view of `A`, materialised in `B`: both runs end in the same memory. -/
example : let v : MView ℤ := .scaled 2 (.transposed .base)
    let h : Heap ℤ := fun c => if 50 ≤ c ∧ c < 65 then
      some (2 * mvals ℤ A ((c - 50) % 5) ((c - 50) / 5)) else heap ℤ c
    Ends (gemv (v.eval (A.view : MatV ℤ)) x.view y) h fun _ h1 =>
      Ends (gemv (B.view : MatV ℤ) x.view y) h fun _ h2 => h1 = h2 := by
  intro v h
  have hh : ∀ c, ¬ (50 ≤ c ∧ c < 65) → h c = heap ℤ c := fun c hc => if_neg hc
  refine C42_gemv_materialised v (A.view : MatV ℤ) B x.view y h (mvals ℤ A) (vals ℤ x) ?_ ?_ ?_ ?_
    rfl rfl rfl le_rfl (by view_facts) (by view_facts) (by view_facts) (by view_facts)
  · intro i j hi hj _
    refine ⟨_, (hh _ ?_).trans (mholds (R := everywhere) bA i j hi hj trivial), rfl⟩
    simp only [A, Mat.view] at *; omega
  · intro i j hi hj _
    have hi' : i < 3 := hi
    have hj' : j < 3 := hj
    have e1 : 50 ≤ B.addr i j ∧ B.addr i j < 65 := by simp only [B]; omega
    have e2 : (B.addr i j - 50) % 5 = j := by simp only [B]; omega
    have e3 : (B.addr i j - 50) / 5 = i := by simp only [B]; omega
    show (if 50 ≤ B.addr i j ∧ B.addr i j < 65 then _ else _) = _
    rw [if_pos e1, e2, e3]
    rfl
  · intro i hi
    refine ⟨_, (hh _ ?_).trans (holds bx i hi), rfl⟩
    simp only [x, Vec.view] at *; omega
  · intro i hi
    refine ⟨_, (hh _ ?_).trans (holds by_ i hi)⟩
    simp only [y] at *; omega

/-- `(T W)ᵀ` computed from the transposed factors. -/
example : Ends (gemm (W.view : MatV ℤ).transposed (T.view : MatV ℤ).transposed C.transposed)
    (heap ℤ) fun _ h' => C.Becomes (heap ℤ) h' (mulMat 2 (mvals ℤ T) (mvals ℤ W)) :=
  C42_gemm_transposed (T.view : MatV ℤ) W.view C _ _ _ (mholdsV bT) (mholdsV bW) (malloc bC)
    rfl rfl rfl (by view_facts) (by view_facts) (by view_facts)

/-- Solving with the transpose of the upper triangle of `A` (diagonal 23, 27, 31). -/
example : Ends (trsv (· / ·) (A.view : MatV ℚ).transposed .lower .explicit x.view y) (heap ℚ)
    fun _ h' => ∃ v, y.Becomes (heap ℚ) h' v ∧ ∀ i, i < 3 →
      ∑ k ∈ range 3, triOf .upper .explicit (mvals ℚ A) k i * v k = vals ℚ x i :=
  C42_trsv_transposed (A.view : MatV ℚ) .upper .explicit x.view y _ _ _ (mholdsV bA) (holdsV bx)
    (alloc by_) rfl rfl le_rfl (by view_facts) (by view_facts) (by view_facts)
    (fun _ i _ => by
      simp only [mvals, A]
      rw [Int.cast_ne_zero]
      omega)

example : Ends (dot0 ((x.view : VecV ℤ).scaled 5) y.view) (heap ℤ) fun r h' =>
    r = 5 * ∑ k ∈ range 3, vals ℤ x k * vals ℤ y k ∧ h' = heap ℤ :=
  C42_dot_scaled 5 x.view y.view _ _ _ (holdsV bx) (holdsV by_) le_rfl

/-- Products of transposed views are products of the matrices that hold the transposes. -/
example : let v : MView ℤ := .transposed .base
    Ends (gemm (v.eval (W.view : MatV ℤ)) (v.eval (T.view : MatV ℤ)) C) (heap ℤ) fun _ h1 =>
      Ends (gemm (W.transposed.view : MatV ℤ) T.transposed.view C) (heap ℤ) fun _ h2 => h1 = h2 := by
  intro v
  exact C42_gemm_materialised v v (W.view : MatV ℤ) T.view W.transposed T.transposed C (heap ℤ)
    (mvals ℤ W) (mvals ℤ T) (mholdsV bW) (mholdsV bT)
    (fun i j hi hj _ => mholds (R := everywhere) bW j i hj hi trivial)
    (fun i j hi hj _ => mholds (R := everywhere) bT j i hj hi trivial) (malloc bC)
    rfl rfl rfl rfl rfl rfl rfl (by view_facts) (by view_facts) (by view_facts)
    (by
      rintro a ⟨i, j, hi, hj, -, e⟩ ⟨k, l, hk, hl, -, e'⟩
      simp only [Mat.transposed, W, C] at *; omega) (by
      rintro a ⟨i, j, hi, hj, -, e⟩ ⟨k, l, hk, hl, -, e'⟩
      simp only [Mat.transposed, T, C] at *; omega)

example (t : Triangle) (d : Diag) : let v : MView ℚ := .transposed .base
    Ends (trsv (· / ·) (v.eval (A.view : MatV ℚ)) t d x.view y) (heap ℚ) fun _ h1 =>
      Ends (trsv (· / ·) (A.transposed.view : MatV ℚ) t d x.view y) (heap ℚ) fun _ h2 => h1 = h2 := by
  intro v
  exact C42_trsv_materialised _ v (A.view : MatV ℚ) A.transposed t d x.view y (heap ℚ)
    (mvals ℚ A) (vals ℚ x) (mholdsV bA)
    (fun i j hi hj _ => mholds (R := everywhere) bA j i hj hi trivial) (holdsV bx) (alloc by_)
    rfl rfl rfl rfl le_rfl (by view_facts) (by view_facts) (by
      rintro a ⟨i, j, hi, hj, -, e⟩ ⟨k, hk, e'⟩
      simp only [Mat.transposed, A, y] at *; omega)
    (by view_facts)

/-- The product with a scaled vector, and with the vector that holds the scaled elements. -/
example : let h : Heap ℤ := fun c => if 20 ≤ c ∧ c < 23 then some (2 * vals ℤ x (22 - c)) else heap ℤ c
    Ends (dot ((x.view : VecV ℤ).scaled 2) y.view 5) h fun r h1 =>
      Ends (dot (z.view : VecV ℤ) y.view 5) h fun r' h2 => r = r' ∧ h1 = h2 := by
  intro h
  have hh : ∀ c, ¬ (20 ≤ c ∧ c < 23) → h c = heap ℤ c := fun c hc => if_neg hc
  have hx : ∀ i, i < 3 → h (x.addr i) = some (vals ℤ x i) := fun i hi =>
    (hh _ (by simp only [x]; omega)).trans (holds bx i hi)
  have hy : ∀ i, i < 3 → h (y.addr i) = some (vals ℤ y i) := fun i hi =>
    (hh _ (by simp only [y]; omega)).trans (holds by_ i hi)
  have hz : ∀ i, i < 3 → h (z.addr i) = some (2 * vals ℤ x i) := fun i hi => by
    change (if 20 ≤ 22 - i ∧ 22 - i < 23 then some (2 * vals ℤ x (22 - (22 - i))) else _) = _
    rw [if_pos (by omega), show 22 - (22 - i) = i by omega]
  exact C42_dot_materialised ((x.view : VecV ℤ).scaled 2) y.view z y 5 h (fun i => 2 * vals ℤ x i)
    (vals ℤ y) (fun i hi => ⟨_, hx i hi, rfl⟩) (fun i hi => ⟨_, hy i hi, rfl⟩) hz hy rfl rfl le_rfl

example : Ends (gemv ((A.view : MatV ℤ).scaled 4) x.view y) (heap ℤ) fun _ h' =>
    y.Becomes (heap ℤ) h' fun i => 4 * ∑ j ∈ range 3, mvals ℤ A i j * vals ℤ x j :=
  C42_gemv_scaled 4 (A.view : MatV ℤ) x.view y _ _ _ (mholdsV bA) (holdsV bx) (alloc by_) rfl le_rfl
    (by view_facts) (by view_facts) (by view_facts)

example : Ends (gemv (A.view : MatV ℤ).transposed x.view y) (heap ℤ) fun _ h' =>
    y.Becomes (heap ℤ) h' fun j => ∑ i ∈ range 3, mvals ℤ A i j * vals ℤ x i :=
  C42_gemv_transposed (A.view : MatV ℤ) x.view y _ _ _ (mholdsV bA) (holdsV bx) (alloc by_) rfl le_rfl
    (by view_facts) (by view_facts) (by view_facts)

end StdBLAS

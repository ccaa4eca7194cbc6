import Verif.Lemmas.Norms
import Verif.Props.Witness

/-!
# Properties C01 - C08: dot products, sums of squares, norms, index of the maximum
-/

namespace StdBLAS
open Finset Witness
variable {α : Type}

/-! ## C01 dot -/

/-- **C01** `dot(v1, v2, init)` is `init + Σ v1(k) * v2(k)`; memory is unchanged. -/
theorem C01_dot [NonUnitalNonAssocSemiring α] (v1 v2 : VecV α) (init : α) (h : Heap α)
    (f g : Nat → α) (h1 : v1.Holds h f) (h2 : v2.Holds h g) (hext : v1.ext ≤ v2.ext) :
    Ends (dot v1 v2 init) h fun r h' =>
      r = init + ∑ k ∈ range v1.ext, f k * g k ∧ h' = h := by
  refine (dot_fold v1 v2 init h f g h1 h2 hext).mono ?_
  rintro r h' ⟨rfl, rfl⟩
  exact ⟨foldl_add_eq_sum _ (fun k => f k * g k) init, rfl⟩

example : Ends (dot (x.view : VecV ℤ) y.view 10) (heap ℤ) fun r h' =>
    r = 10 + ∑ k ∈ range 3, vals ℤ x k * vals ℤ y k ∧ h' = heap ℤ :=
  C01_dot _ _ _ _ _ _ (holdsV bx) (holdsV by_) le_rfl

/-- **C01** `dot(v1, v2)` is `Σ v1(k) * v2(k)`. -/
theorem C01_dot_no_init [NonUnitalNonAssocSemiring α] (v1 v2 : VecV α) (h : Heap α)
    (f g : Nat → α) (h1 : v1.Holds h f) (h2 : v2.Holds h g) (hext : v1.ext ≤ v2.ext) :
    Ends (dot0 v1 v2) h fun r h' => r = ∑ k ∈ range v1.ext, f k * g k ∧ h' = h := by
  refine (C01_dot v1 v2 0 h f g h1 h2 hext).mono ?_
  rintro r h' ⟨rfl, rfl⟩
  simp

example : Ends (dot0 (x.view : VecV ℤ) z.view) (heap ℤ) fun r h' =>
    r = ∑ k ∈ range 3, vals ℤ x k * vals ℤ z k ∧ h' = heap ℤ :=
  C01_dot_no_init _ _ _ _ _ (holdsV bx) (holdsV bz) le_rfl

/-- **C01** the precondition is sharp: with a shorter second vector, `dot` reads outside it. -/
theorem C01_dot_too_short [Add α] [Mul α] (v1 v2 : VecV α) (init : α) (h : Heap α)
    (f g : Nat → α) (h1 : v1.Holds h f) (h2 : v2.Holds h g) (hext : v2.ext < v1.ext) :
    Fails (dot v1 v2 init) h .ub := by
  unfold dot
  have e : v1.ext = v2.ext + (v1.ext - v2.ext) := by omega
  rw [e, ← List.range'_append_1, foldEach_append]
  refine fails_bind ?_
  refine Ends.mono (Q := fun _ h' => h' = h) ?_ ?_
  · refine (ends_foldEach_read (fun s k => s + f k * g k) ?_).mono fun _ _ r => r.2
    intro k hk s
    have hk' : k < v2.ext := by simpa using hk
    obtain ⟨v, hv, ev⟩ := h1 k (by omega)
    obtain ⟨w, hw, ew⟩ := h2 k (by omega)
    simp only [ends_bind, ends_vecV_get, ends_pure]
    exact ⟨by omega, v, hv, hk', w, hw, by rw [ev, ew], trivial⟩
  · rintro s h' rfl
    obtain ⟨n, hn⟩ : ∃ n, v1.ext - v2.ext = n + 1 := ⟨v1.ext - v2.ext - 1, by omega⟩
    rw [hn, List.range'_succ]
    change Fails ((v1.get (0 + v2.ext) >>= fun a => v2.get (0 + v2.ext) >>= fun b =>
      pure (s + a * b)) >>= fun s' => foldEach _ s' _) _ _
    refine fails_bind_left (fails_bind ?_)
    rw [ends_vecV_get]
    obtain ⟨v, hv, ev⟩ := h1 v2.ext hext
    rw [Nat.zero_add]
    exact ⟨hext, v, hv, fails_bind_left (fails_vecV_get le_rfl)⟩

example : Fails (dot (x.view : VecV ℤ) (⟨2, y.addr⟩ : Vec).view 0) (heap ℤ) .ub :=
  C01_dot_too_short _ _ _ _ (vals ℤ x) (vals ℤ y) (holdsV bx)
    (fun i hi => ⟨_, heap_lt (by_ i (by simp only [Vec.view, y] at *; omega)), rfl⟩) (by decide)

/-! ## C02 dotc -/

/-- **C02** `dotc(v1, v2, init)` is `init + Σ conj(v1(k)) * v2(k)`. -/
theorem C02_dotc [NonUnitalNonAssocSemiring α] [ConjOps α] (v1 v2 : VecV α) (init : α)
    (h : Heap α) (f g : Nat → α) (h1 : v1.Holds h f) (h2 : v2.Holds h g)
    (hext : v1.ext ≤ v2.ext) :
    Ends (dotc v1 v2 init) h fun r h' =>
      r = init + ∑ k ∈ range v1.ext, ConjOps.conj (f k) * g k ∧ h' = h := by
  refine C01_dot v1.conjugated v2 init h (fun k => ConjOps.conj (f k)) g ?_ h2 hext
  intro i hi
  obtain ⟨v, hv, e⟩ := h1 i hi
  exact ⟨v, hv, by simp [VecV.conjugated, e]⟩

example : Ends (dotc (x.view : VecV ℂ) y.view 1) (heap ℂ) fun r h' =>
    r = 1 + ∑ k ∈ range 3, ConjOps.conj (vals ℂ x k) * vals ℂ y k ∧ h' = heap ℂ :=
  C02_dotc _ _ _ _ _ _ (holdsV bx) (holdsV by_) le_rfl

/-- **C02** on real vectors `dotc` and `dot` are the same computation. -/
theorem C02_dotc_real (v1 v2 : VecV ℝ) (init : ℝ) : dotc v1 v2 init = dot v1 v2 init := rfl

/-- **C02** on complex vectors, exchanging the arguments conjugates the result. -/
theorem C02_dotc_conj_symm (v1 v2 : VecV ℂ) (h : Heap ℂ) (f g : Nat → ℂ) (h1 : v1.Holds h f)
    (h2 : v2.Holds h g) (hext : v1.ext = v2.ext) :
    Ends (dotc0 v1 v2) h fun r _ => Ends (dotc0 v2 v1) h fun r' _ => r' = (starRingEnd ℂ) r := by
  refine (C02_dotc v1 v2 0 h f g h1 h2 hext.le).mono ?_
  rintro r h' ⟨rfl, rfl⟩
  refine (C02_dotc v2 v1 0 h' g f h2 h1 hext.ge).mono ?_
  rintro r h'' ⟨rfl, rfl⟩
  rw [hext]
  simp only [zero_add, map_sum, map_mul, conj_complex, Complex.conj_conj]
  exact sum_congr rfl fun k _ => mul_comm _ _

example : Ends (dotc0 (x.view : VecV ℂ) y.view) (heap ℂ) fun r _ =>
    Ends (dotc0 (y.view : VecV ℂ) x.view) (heap ℂ) fun r' _ => r' = (starRingEnd ℂ) r :=
  C02_dotc_conj_symm _ _ _ _ _ (holdsV bx) (holdsV by_) rfl

/-- **C02** `dotc(x, x)` is real and nonnegative: it is `Σ |x(k)|²`. -/
theorem C02_dotc_self (v : VecV ℂ) (h : Heap ℂ) (f : Nat → ℂ) (hv : v.Holds h f) :
    Ends (dotc0 v v) h fun r _ =>
      r = ((∑ k ∈ range v.ext, ‖f k‖ ^ 2 : ℝ) : ℂ) ∧ 0 ≤ ∑ k ∈ range v.ext, ‖f k‖ ^ 2 := by
  refine (C02_dotc v v 0 h f f hv hv le_rfl).mono ?_
  rintro r h' ⟨rfl, rfl⟩
  refine ⟨?_, sum_nonneg fun k _ => sq_nonneg _⟩
  have e : ((∑ k ∈ range v.ext, ‖f k‖ ^ 2 : ℝ) : ℂ) =
      ∑ k ∈ range v.ext, ((‖f k‖ ^ 2 : ℝ) : ℂ) := map_sum Complex.ofRealHom _ _
  rw [zero_add, e]
  refine sum_congr rfl fun k _ => ?_
  rw [conj_complex, mul_comm, Complex.mul_conj, Complex.normSq_eq_norm_sq]

example : Ends (dotc0 (x.view : VecV ℂ) x.view) (heap ℂ) fun r _ =>
    r = ((∑ k ∈ range 3, ‖vals ℂ x k‖ ^ 2 : ℝ) : ℂ) ∧ 0 ≤ ∑ k ∈ range 3, ‖vals ℂ x k‖ ^ 2 :=
  C02_dotc_self _ _ _ (holdsV bx)

/-! ## C03 vector_sum_of_squares -/

/-- **C03** the result represents exactly the initial sum plus the sum of squares; no
division by zero happens; the scaling factor is the running maximum (so every quotient
that is squared is at most 1); the scaled sum grows by at most 1 per element. -/
theorem C03_sum_of_squares [AbsOps α] [LawfulAbs α] (x : VecV α) (init : SumOfSquares)
    (h : Heap α) (f : Nat → α) (hx : x.Holds h f) :
    Ends (vectorSumOfSquares x init) h fun r h' => h' = h ∧
      r.scalingFactor ^ 2 * r.scaledSumOfSquares =
        init.scalingFactor ^ 2 * init.scaledSumOfSquares +
          ∑ k ∈ range x.ext, AbsOps.abs (f k) ^ 2 ∧
      (0 ≤ init.scalingFactor →
        (init.scalingFactor ≤ r.scalingFactor ∧ (∀ k < x.ext, AbsOps.abs (f k) ≤ r.scalingFactor) ∧
          (r.scalingFactor = init.scalingFactor ∨
            ∃ k < x.ext, r.scalingFactor = AbsOps.abs (f k))) ∧
        (1 ≤ init.scaledSumOfSquares → 1 ≤ r.scaledSumOfSquares ∧
          r.scaledSumOfSquares ≤ init.scaledSumOfSquares + x.ext)) := by
  refine (ssq_run x init h f hx).mono ?_
  rintro r h' ⟨rfl, rfl⟩
  refine ⟨rfl, ?_, ?_⟩
  · have := foldl_range_inv (n := x.ext) (step := fun s k => ssqStep s (AbsOps.abs (f k)))
      (fun n s => s.total = init.total + ∑ k ∈ range n, AbsOps.abs (f k) ^ 2) (s := init)
      (by simp) ?_
    · exact this
    · intro k s _ e
      rw [ssqStep_total _ _ (LawfulAbs.abs_nonneg _), e, sum_range_succ, add_assoc]
  · intro hs0
    constructor
    · have := foldl_range_inv (n := x.ext) (step := fun s k => ssqStep s (AbsOps.abs (f k)))
        (fun n s => 0 ≤ s.scalingFactor ∧ init.scalingFactor ≤ s.scalingFactor ∧
          (∀ k < n, AbsOps.abs (f k) ≤ s.scalingFactor) ∧
          (s.scalingFactor = init.scalingFactor ∨
            ∃ k < n, s.scalingFactor = AbsOps.abs (f k))) (s := init)
        ⟨hs0, le_rfl, by simp, Or.inl rfl⟩ ?_
      · exact this.2
      · rintro k s _ ⟨e0, e1, e2, e3⟩
        rw [ssqStep_scale s _ e0]
        refine ⟨le_max_of_le_left e0, le_max_of_le_left e1, ?_, ?_⟩
        · intro i hi
          rcases Nat.lt_succ_iff_lt_or_eq.1 hi with hi | rfl
          · exact le_max_of_le_left (e2 i hi)
          · exact le_max_right _ _
        · rcases le_total s.scalingFactor (AbsOps.abs (f k)) with hle | hle
          · exact Or.inr ⟨k, by omega, max_eq_right hle⟩
          · rw [max_eq_left hle]
            rcases e3 with e3 | ⟨i, hi, e3⟩
            · exact Or.inl e3
            · exact Or.inr ⟨i, by omega, e3⟩
    · intro hq0
      have := foldl_range_inv (n := x.ext) (step := fun s k => ssqStep s (AbsOps.abs (f k)))
        (fun n s => 0 ≤ s.scalingFactor ∧ 1 ≤ s.scaledSumOfSquares ∧
          s.scaledSumOfSquares ≤ init.scaledSumOfSquares + n) (s := init)
        ⟨hs0, hq0, by simp⟩ ?_
      · exact this.2
      · rintro k s _ ⟨e0, e1, e2⟩
        have := ssqStep_ssq s (AbsOps.abs (f k)) e0 (LawfulAbs.abs_nonneg _) e1
        refine ⟨?_, this.1, ?_⟩
        · rw [ssqStep_scale s _ e0]; exact le_max_of_le_left e0
        · push_cast; linarith [this.2]

example : Ends (vectorSumOfSquares (x.view : VecV ℝ) ⟨3, 2⟩) (heap ℝ) fun r _ =>
    r.scalingFactor ^ 2 * r.scaledSumOfSquares = 3 ^ 2 * 2 + ∑ k ∈ range 3, |vals ℝ x k| ^ 2 :=
  (C03_sum_of_squares _ ⟨3, 2⟩ _ _ (holdsV bx)).mono fun _ _ r => r.2.1

/-! ## C04 vector_two_norm -/

/-- **C04** `vector_two_norm(x, init)` is `init` plus the Euclidean norm. -/
theorem C04_two_norm [AbsOps α] [LawfulAbs α] (x : VecV α) (init : ℝ) (h : Heap α) (f : Nat → α)
    (hx : x.Holds h f) :
    Ends (vectorTwoNorm x init) h fun r h' =>
      r = init + Real.sqrt (∑ k ∈ range x.ext, AbsOps.abs (f k) ^ 2) ∧ h' = h := by
  unfold vectorTwoNorm
  rw [ends_bind]
  refine (C03_sum_of_squares x ⟨0, 1⟩ h f hx).mono ?_
  rintro r h' ⟨rfl, e, hb⟩
  rw [ends_pure]
  have hs : 0 ≤ r.scalingFactor := (hb le_rfl).1.1
  refine ⟨?_, rfl⟩
  rw [scale_mul_sqrt _ _ hs, e]
  simp

example : Ends (vectorTwoNorm (x.view : VecV ℂ) 5) (heap ℂ) fun r h' =>
    r = 5 + Real.sqrt (∑ k ∈ range 3, ‖vals ℂ x k‖ ^ 2) ∧ h' = heap ℂ :=
  C04_two_norm _ _ _ _ (holdsV bx)

/-! ## C05 vector_abs_sum -/

/-- **C05** arithmetic element types: `init + Σ |v(k)|`. -/
theorem C05_abs_sum_real (v : VecV ℝ) (init : ℝ) (h : Heap ℝ) (f : Nat → ℝ)
    (hv : v.Holds h f) :
    Ends (vectorAbsSum v init) h fun r h' => r = init + ∑ k ∈ range v.ext, |f k| ∧ h' = h := by
  refine Ends.mono (Q := fun r h' => r = (List.range' 0 v.ext).foldl (fun s k => s + |f k|) init
    ∧ h' = h) ?_ ?_
  · change Ends (if true then _ else _) _ _
    rw [if_pos rfl]
    refine ends_foldEach_read (fun s k => s + |f k|) ?_
    intro k hk s
    have hk' : k < v.ext := by simpa using hk
    obtain ⟨w, hw, ew⟩ := hv k hk'
    simp only [ends_bind, ends_vecV_get, ends_pure]
    exact ⟨hk', w, hw, by rw [ew]; rfl, trivial⟩
  · rintro r h' ⟨rfl, rfl⟩
    exact ⟨foldl_add_eq_sum _ (fun k => |f k|) init, rfl⟩

example : Ends (vectorAbsSum (x.view : VecV ℝ) 2) (heap ℝ) fun r h' =>
    r = 2 + ∑ k ∈ range 3, |vals ℝ x k| ∧ h' = heap ℝ :=
  C05_abs_sum_real _ _ _ _ (holdsV bx)

/-- **C05** complex element types: `init + Σ (|re v(k)| + |im v(k)|)`. -/
theorem C05_abs_sum_complex (v : VecV ℂ) (init : ℝ) (h : Heap ℂ) (f : Nat → ℂ)
    (hv : v.Holds h f) :
    Ends (vectorAbsSum v init) h fun r h' =>
      r = init + ∑ k ∈ range v.ext, (|(f k).re| + |(f k).im|) ∧ h' = h := by
  refine Ends.mono (Q := fun r h' => r = (List.range' 0 v.ext).foldl
    (fun s k => s + (|(f k).re| + |(f k).im|)) init ∧ h' = h) ?_ ?_
  · change Ends (if false then _ else _) _ _
    rw [if_neg (by simp)]
    refine ends_foldEach_read (fun s k => s + (|(f k).re| + |(f k).im|)) ?_
    intro k hk s
    have hk' : k < v.ext := by simpa using hk
    obtain ⟨w, hw, ew⟩ := hv k hk'
    simp only [ends_bind, ends_vecV_get, ends_pure]
    refine ⟨hk', w, hw, hk', w, hw, ?_, trivial⟩
    rw [ew, ← add_assoc]; rfl
  · rintro r h' ⟨rfl, rfl⟩
    exact ⟨foldl_add_eq_sum _ (fun k => |(f k).re| + |(f k).im|) init, rfl⟩

example : Ends (vectorAbsSum (x.view : VecV ℂ) 2) (heap ℂ) fun r h' =>
    r = 2 + ∑ k ∈ range 3, (|(vals ℂ x k).re| + |(vals ℂ x k).im|) ∧ h' = heap ℂ :=
  C05_abs_sum_complex _ _ _ _ (holdsV bx)

/-! ## C06 vector_idx_abs_max -/

/-- The result is the first index at which `m` is largest, among `k < n`. -/
def IsFirstMax (n : Nat) (m : Nat → ℝ) (r : Nat) : Prop :=
  r < n ∧ (∀ k < n, m k ≤ m r) ∧ ∀ k < r, m k < m r

theorem idx_abs_max_aux [AbsOps α] (sizeMax : Nat) (v : VecV α) (h : Heap α) (f : Nat → α)
    (hv : v.Holds h f) (hne : v.ext ≠ 0) :
    Ends (vectorIdxAbsMax sizeMax v) h fun r h' =>
      IsFirstMax v.ext (fun k => idxMagnitude (f k)) r ∧ h' = h := by
  unfold vectorIdxAbsMax
  rw [if_neg hne]
  obtain ⟨a, ha, ea⟩ := hv 0 (by omega)
  simp only [ends_bind, ends_vecV_get]
  refine ⟨by omega, a, ha, ?_⟩
  rw [ea]
  refine Ends.mono (Q := fun s h' => (s.2 = idxMagnitude (f s.1) ∧
    IsFirstMax v.ext (fun k => idxMagnitude (f k)) s.1) ∧ h' = h) ?_ ?_
  swap
  · rintro s h' ⟨⟨_, e2⟩, rfl⟩
    rw [ends_pure]; exact ⟨e2, rfl⟩
  classical
  have key2 : ∀ (l : Nat) (m : Nat) (s : Nat × ℝ), m + l = v.ext →
      s.2 = idxMagnitude (f s.1) → IsFirstMax m (fun k => idxMagnitude (f k)) s.1 →
      Ends (foldEach (List.range' m l) s (fun s i => do
        let b ← v.get i
        if s.2 < idxMagnitude b then pure (i, idxMagnitude b) else pure s)) h
        (fun s h' => (s.2 = idxMagnitude (f s.1) ∧
          IsFirstMax v.ext (fun k => idxMagnitude (f k)) s.1) ∧ h' = h) := by
    intro l
    induction l with
    | zero =>
      intro m s e1 e2 e3
      have : m = v.ext := by omega
      subst this
      change Ends (pure s) h _
      rw [ends_pure]; exact ⟨⟨e2, e3⟩, rfl⟩
    | succ l ih =>
      intro m s e1 e2 e3
      rw [List.range'_succ]
      obtain ⟨b, hb, eb⟩ := hv m (by omega)
      change Ends ((v.get m >>= fun b => _) >>= fun s' => foldEach (List.range' (m + 1) l) s' _) h _
      simp only [ends_bind, ends_vecV_get]
      refine ⟨by omega, b, hb, ?_⟩
      rw [eb]
      obtain ⟨c1, c2, c3⟩ := e3
      split
      · next hlt =>
        rw [ends_pure]
        rw [e2] at hlt
        refine ih (m + 1) _ (by omega) rfl ⟨by simp, ?_, ?_⟩
        · intro k hk
          rcases Nat.lt_succ_iff_lt_or_eq.1 hk with hk | rfl
          · exact (c2 k hk).trans hlt.le
          · exact le_rfl
        · intro k hk
          exact (c2 k hk).trans_lt hlt
      · next hlt =>
        rw [ends_pure]
        rw [e2] at hlt
        refine ih (m + 1) _ (by omega) e2 ⟨by omega, ?_, c3⟩
        intro k hk
        rcases Nat.lt_succ_iff_lt_or_eq.1 hk with hk | rfl
        · exact c2 k hk
        · exact not_lt.1 hlt
  refine key2 (v.ext - 1) 1 _ (by omega) rfl ⟨by omega, ?_, by omega⟩
  intro k hk
  have : k = 0 := by omega
  subst this; exact le_rfl

/-- **C06** real elements: the first index of an element of largest absolute value. -/
theorem C06_idx_abs_max_real (sizeMax : Nat) (v : VecV ℝ) (h : Heap ℝ) (f : Nat → ℝ)
    (hv : v.Holds h f) (hne : v.ext ≠ 0) :
    Ends (vectorIdxAbsMax sizeMax v) h fun r h' =>
      (r < v.ext ∧ (∀ k < v.ext, |f k| ≤ |f r|) ∧ ∀ k < r, |f k| < |f r|) ∧ h' = h :=
  idx_abs_max_aux sizeMax v h f hv hne

example : Ends (vectorIdxAbsMax 255 (x.view : VecV ℝ)) (heap ℝ) fun r h' =>
    (r < 3 ∧ (∀ k < 3, |vals ℝ x k| ≤ |vals ℝ x r|) ∧ ∀ k < r, |vals ℝ x k| < |vals ℝ x r|) ∧
      h' = heap ℝ :=
  C06_idx_abs_max_real _ _ _ _ (holdsV bx) (by decide)

/-- **C06** complex elements: the first index of an element of largest `|re| + |im|`. -/
theorem C06_idx_abs_max_complex (sizeMax : Nat) (v : VecV ℂ) (h : Heap ℂ) (f : Nat → ℂ)
    (hv : v.Holds h f) (hne : v.ext ≠ 0) :
    Ends (vectorIdxAbsMax sizeMax v) h fun r h' =>
      (r < v.ext ∧ (∀ k < v.ext, |(f k).re| + |(f k).im| ≤ |(f r).re| + |(f r).im|) ∧
        ∀ k < r, |(f k).re| + |(f k).im| < |(f r).re| + |(f r).im|) ∧ h' = h :=
  idx_abs_max_aux sizeMax v h f hv hne

example : Ends (vectorIdxAbsMax 255 (y.view : VecV ℂ)) (heap ℂ) fun r _ => r < 3 :=
  (C06_idx_abs_max_complex _ _ _ _ (holdsV by_) (by decide)).mono fun _ _ r => r.1.1

/-- **C06** the empty vector gives `numeric_limits<SizeType>::max()`; no extent representable
in that type makes this a valid index. -/
theorem C06_idx_abs_max_empty [AbsOps α] (sizeMax : Nat) (v : VecV α) (h : Heap α)
    (he : v.ext = 0) :
    Ends (vectorIdxAbsMax sizeMax v) h fun r h' =>
      r = sizeMax ∧ h' = h ∧ ∀ ext ≤ sizeMax, ¬ r < ext := by
  unfold vectorIdxAbsMax
  rw [if_pos he, ends_pure]
  exact ⟨rfl, rfl, fun e he => by omega⟩

example : Ends (vectorIdxAbsMax 255 ((⟨0, fun i => i⟩ : Vec).view : VecV ℝ)) (heap ℝ)
    fun r h' => r = 255 ∧ h' = heap ℝ ∧ ∀ ext ≤ 255, ¬ r < ext :=
  C06_idx_abs_max_empty _ _ _ rfl

/-! ## C07 matrix_frob_norm: false for the code -/

/-- The Frobenius norm. -/
noncomputable def frobNorm [AbsOps α] (r c : Nat) (f : Nat → Nat → α) : ℝ :=
  Real.sqrt (∑ i ∈ range r, ∑ j ∈ range c, AbsOps.abs (f i j) ^ 2)

/-- Row-major order of positions. -/
def Before (i j k l : Nat) : Prop := i < k ∨ (i = k ∧ j < l)

theorem rowMajor_pairwise (r c : Nat) (m : Nat → Nat → ℝ) (P : ℝ → ℝ → Prop) :
    (rowMajor r c m).Pairwise P ↔
      ∀ i j k l, i < r → j < c → k < r → l < c → Before i j k l → P (m i j) (m k l) := by
  unfold rowMajor
  rw [List.pairwise_flatMap]
  simp only [List.pairwise_map, List.mem_range]
  constructor
  · rintro ⟨h1, h2⟩ i j k l hi hj hk hl (hlt | ⟨rfl, hlt⟩)
    · have := (List.pairwise_iff_getElem.1 h2) i k (by simpa using hi) (by simpa using hk) hlt
      simp only [List.getElem_range, List.mem_map, List.mem_range] at this
      exact this _ ⟨j, hj, rfl⟩ _ ⟨l, hl, rfl⟩
    · have := (List.pairwise_iff_getElem.1 (h1 i hi)) j l (by simpa using hj) (by simpa using hl) hlt
      simpa using this
  · intro H
    constructor
    · intro i hi
      rw [List.pairwise_iff_getElem]
      intro j l hj hl hlt
      simp only [List.length_range] at hj hl
      simpa using H i j i l hi hj hi hl (Or.inr ⟨rfl, hlt⟩)
    · rw [List.pairwise_iff_getElem]
      intro i k hi hk hlt
      simp only [List.length_range] at hi hk
      simp only [List.getElem_range, List.mem_map, List.mem_range]
      rintro _ ⟨j, hj, rfl⟩ _ ⟨l, hl, rfl⟩
      exact H i j k l hi hj hk hl (Or.inl hlt)

theorem mem_rowMajor {r c : Nat} {m : Nat → Nat → ℝ} {a : ℝ} :
    a ∈ rowMajor r c m ↔ ∃ i j, i < r ∧ j < c ∧ m i j = a := by
  unfold rowMajor
  simp only [List.mem_flatMap, List.mem_range, List.mem_map]
  constructor
  · rintro ⟨i, hi, j, hj, e⟩; exact ⟨i, j, hi, hj, e⟩
  · rintro ⟨i, j, hi, hj, e⟩; exact ⟨i, hi, j, hj, e⟩

/-- **C07 (exact characterisation)** `matrix_frob_norm(A, init)` always ends normally with a
value `≥ init + ‖A‖_F`; it equals `init + ‖A‖_F` **if and only if** `A` is 1×1 or every nonzero
magnitude is at least as large as all magnitudes before it in row-major order.
The claim of C07 (equality for every matrix) is false: see `C07_frob_norm_false`. -/
theorem C07_frob_norm_partial [AbsOps α] [LawfulAbs α] (A : MatV α) (init : ℝ) (h : Heap α)
    (f : Nat → Nat → α) (hA : A.Holds h f) :
    Ends (matrixFrobNorm A init) h fun r h' => h' = h ∧
      init + frobNorm A.rows A.cols f ≤ r ∧
      (r = init + frobNorm A.rows A.cols f ↔
        ((A.rows = 1 ∧ A.cols = 1) ∨
          ∀ i j k l, i < A.rows → j < A.cols → k < A.rows → l < A.cols → Before i j k l →
            AbsOps.abs (f k l) ≠ 0 → AbsOps.abs (f i j) ≤ AbsOps.abs (f k l))) := by
  by_cases h0 : A.rows = 0 ∨ A.cols = 0
  · unfold matrixFrobNorm
    rw [if_pos h0, ends_pure]
    have : frobNorm A.rows A.cols f = 0 := by
      unfold frobNorm
      rcases h0 with e | e <;> simp [e]
    refine ⟨rfl, by simp [this], ?_⟩
    rw [this, add_zero]
    refine ⟨fun _ => Or.inr ?_, fun _ => rfl⟩
    intro i j k l hi hj
    omega
  by_cases h1 : A.rows = 1 ∧ A.cols = 1
  · unfold matrixFrobNorm
    rw [if_neg h0, if_pos h1, ends_bind, ends_matV_get]
    obtain ⟨v, hv, ev⟩ := hA 0 0 (by omega) (by omega) trivial
    refine ⟨by omega, v, hv, ?_⟩
    rw [ends_pure, ev]
    have : frobNorm A.rows A.cols f = AbsOps.abs (f 0 0) := by
      unfold frobNorm
      rw [h1.1, h1.2]
      simp [Real.sqrt_sq (LawfulAbs.abs_nonneg (f 0 0))]
    rw [this]
    exact ⟨rfl, le_rfl, fun _ => Or.inl h1, fun _ => rfl⟩
  · refine (frob_run A init h f hA h0 h1).mono ?_
    rintro r h' ⟨rfl, rfl⟩
    set L := rowMajor A.rows A.cols fun i j => AbsOps.abs (f i j) with hL
    have hnn : ∀ a ∈ L, 0 ≤ a := by
      intro a ha
      obtain ⟨i, j, _, _, rfl⟩ := mem_rowMajor.1 ha
      exact LawfulAbs.abs_nonneg _
    have hn0 := frob_fold_nonneg L ⟨0, 1⟩ ⟨le_rfl, zero_le_one⟩
    have hge := frob_fold_ge L hnn ⟨0, 1⟩
    have hiff := frob_fold_eq_iff L hnn ⟨0, 1⟩ le_rfl
    have hsum : (L.map (· ^ 2)).sum =
        ∑ i ∈ range A.rows, ∑ j ∈ range A.cols, AbsOps.abs (f i j) ^ 2 :=
      sum_rowMajor _ _ _ (· ^ 2)
    rw [hsum] at hge hiff
    have t0 : (⟨0, 1⟩ : SumOfSquares).total = 0 := by simp [SumOfSquares.total]
    rw [t0, zero_add] at hge hiff
    rw [scale_mul_sqrt _ _ hn0.1]
    have hsum0 : 0 ≤ ∑ i ∈ range A.rows, ∑ j ∈ range A.cols, AbsOps.abs (f i j) ^ 2 :=
      sum_nonneg fun i _ => sum_nonneg fun j _ => sq_nonneg _
    refine ⟨rfl, ?_, ?_⟩
    · unfold frobNorm
      have := Real.sqrt_le_sqrt hge
      unfold SumOfSquares.total at this
      linarith
    · unfold frobNorm
      change init + Real.sqrt (SumOfSquares.total _) = _ ↔ _
      rw [add_right_inj, Real.sqrt_inj (hsum0.trans hge) hsum0]
      rw [hiff, hL, rowMajor_pairwise]
      simp only [h1, false_or]
      constructor
      · rintro ⟨_, H⟩; exact H
      · intro H
        refine ⟨?_, H⟩
        intro a ha _
        exact hnn a ha

/-- a 2×2 matrix with increasing entries: here the result is the Frobenius norm -/
example : Ends (matrixFrobNorm (B.view : MatV ℝ) 1) (heap ℝ) fun r _ =>
    1 + frobNorm 3 3 (mvals ℝ B) ≤ r :=
  (C07_frob_norm_partial _ 1 _ _ (mholdsV bB)).mono fun _ _ r => r.2.1

/-- A memory in which a 1×2 matrix holds `[2, 1]`. -/
def frobHeap : Heap ℝ := fun a => if a = 0 then some 2 else if a = 1 then some 1 else none

/-- **C07 is false**: for the 1×2 matrix `[2, 1]` the result is not the Frobenius norm. -/
theorem C07_frob_norm_false :
    ∃ (A : MatV ℝ) (h : Heap ℝ) (f : Nat → Nat → ℝ), A.Holds h f ∧
      Ends (matrixFrobNorm A 0) h fun r _ => r ≠ 0 + frobNorm A.rows A.cols f := by
  refine ⟨(⟨1, 2, fun _ j => j⟩ : Mat).view, frobHeap, fun _ j => if j = 0 then 2 else 1, ?_, ?_⟩
  · intro i j hi hj _
    have : j = 0 ∨ j = 1 := by simp only [Mat.view] at hj; omega
    rcases this with rfl | rfl <;> simp [frobHeap, Mat.view]
  · refine (C07_frob_norm_partial _ 0 frobHeap (fun _ j => if j = 0 then 2 else 1) ?_).mono ?_
    · intro i j hi hj _
      have : j = 0 ∨ j = 1 := by simp only [Mat.view] at hj; omega
      rcases this with rfl | rfl <;> simp [frobHeap, Mat.view]
    · rintro r h' ⟨_, _, hiff⟩ e
      rw [hiff] at e
      rcases e with e | e
      · simp [Mat.view] at e
      · have := e 0 0 0 1 (by simp [Mat.view]) (by simp [Mat.view]) (by simp [Mat.view])
          (by simp [Mat.view]) (Or.inr ⟨rfl, by omega⟩) (by simp [AbsOps.abs])
        simp only [AbsOps.abs] at this
        norm_num at this

/-! ## C08 one norm and infinity norm -/

theorem max_fold_spec (n : Nat) (c : Nat → ℝ) (init : ℝ) (hc : ∀ j < n, init ≤ c j) (hn : n ≠ 0) :
    (∃ j < n, (List.range' 0 n).foldl (fun r j => max (c j) r) init = c j) ∧
      ∀ j < n, c j ≤ (List.range' 0 n).foldl (fun r j => max (c j) r) init := by
  have := foldl_range_inv (n := n) (step := fun r j => max (c j) r) (s := init)
    (fun k r => (r = init ∨ ∃ j < k, r = c j) ∧ init ≤ r ∧ (∀ j < k, c j ≤ r))
    ⟨Or.inl rfl, le_rfl, by simp⟩ ?_
  · obtain ⟨h1, h2, h3⟩ := this
    refine ⟨?_, h3⟩
    rcases h1 with h1 | h1
    · refine ⟨0, by omega, le_antisymm ?_ (h3 0 (by omega))⟩
      rw [h1]; exact hc 0 (by omega)
    · exact h1
  · rintro k s _ ⟨h1, h2, h3⟩
    refine ⟨?_, le_max_of_le_right h2, ?_⟩
    · rcases le_total s (c k) with hle | hle
      · exact Or.inr ⟨k, by omega, max_eq_left hle⟩
      · rw [max_eq_right hle]
        rcases h1 with h1 | ⟨j, hj, h1⟩
        · exact Or.inl h1
        · exact Or.inr ⟨j, by omega, h1⟩
    · intro j hj
      rcases Nat.lt_succ_iff_lt_or_eq.1 hj with hj | rfl
      · exact le_max_of_le_right (h3 j hj)
      · exact le_max_left _ _

/-- **C08** `matrix_inf_norm(A, init)` is `init` plus the largest row sum of magnitudes. -/
theorem C08_inf_norm [AbsOps α] [LawfulAbs α] (A : MatV α) (init : ℝ) (h : Heap α)
    (f : Nat → Nat → α) (hA : A.Holds h f) :
    Ends (matrixInfNorm A init) h fun r h' => h' = h ∧
      ((A.rows = 0 ∨ A.cols = 0) → r = init) ∧
      (A.rows ≠ 0 → A.cols ≠ 0 →
        (∃ i < A.rows, r = init + ∑ j ∈ range A.cols, AbsOps.abs (f i j)) ∧
          ∀ i < A.rows, init + ∑ j ∈ range A.cols, AbsOps.abs (f i j) ≤ r) := by
  by_cases h0 : A.rows = 0 ∨ A.cols = 0
  · unfold matrixInfNorm
    rw [if_pos h0, ends_pure]
    exact ⟨rfl, fun _ => rfl, by omega⟩
  by_cases h1 : A.rows = 1 ∧ A.cols = 1
  · unfold matrixInfNorm
    rw [if_neg h0, if_pos h1, ends_bind, ends_matV_get]
    obtain ⟨v, hv, ev⟩ := hA 0 0 (by omega) (by omega) trivial
    refine ⟨by omega, v, hv, ?_⟩
    rw [ends_pure, ev, h1.1, h1.2]
    refine ⟨rfl, by omega, fun _ _ => ⟨⟨0, by omega, by simp⟩, ?_⟩⟩
    intro i hi
    obtain rfl : i = 0 := by omega
    simp
  · unfold matrixInfNorm
    rw [if_neg h0, if_neg h1]
    refine (ends_foldEach_read (fun r i => max (init + ∑ j ∈ range A.cols, AbsOps.abs (f i j)) r)
      ?_).mono ?_
    · intro i hi r
      have hi' : i < A.rows := by simpa using hi
      rw [ends_bind]
      refine (ends_foldEach_read (fun s j => s + AbsOps.abs (f i j)) ?_).mono ?_
      · intro j hj s
        have hj' : j < A.cols := by simpa using hj
        obtain ⟨v, hv, ev⟩ := hA i j hi' hj' trivial
        simp only [ends_bind, ends_matV_get, ends_pure]
        exact ⟨⟨hi', hj'⟩, v, hv, by rw [ev], trivial⟩
      · rintro s h' ⟨rfl, rfl⟩
        rw [ends_pure, foldl_add_eq_sum _ (fun j => AbsOps.abs (f i j))]
        exact ⟨rfl, rfl⟩
    · rintro r h' ⟨rfl, rfl⟩
      refine ⟨rfl, fun e => absurd e h0, fun hr hc => ?_⟩
      exact max_fold_spec A.rows (fun i => init + ∑ j ∈ range A.cols, AbsOps.abs (f i j)) init
        (fun i _ => le_add_of_nonneg_right (sum_nonneg fun j _ => LawfulAbs.abs_nonneg _)) hr

example : Ends (matrixInfNorm (A.view : MatV ℝ) 1) (heap ℝ) fun r _ =>
    ∃ i < 3, r = 1 + ∑ j ∈ range 3, |mvals ℝ A i j| :=
  (C08_inf_norm _ 1 _ _ (mholdsV bA)).mono fun _ _ r => (r.2.2 (by decide) (by decide)).1

/-- **C08** the one norm of a view is the infinity norm of its transposed view: the same
accesses in the same order, hence the same outcome in every memory. -/
theorem C08_one_norm_eq_inf_norm_transposed [AbsOps α] (A : MatV α) (init : ℝ) :
    matrixOneNorm A init = matrixInfNorm A.transposed init := by
  have e : ∀ i j, A.transposed.get i j = A.get j i := by
    intro i j
    unfold MatV.get MatV.transposed Mat.transposed
    simp only [and_comm]
  have e1 : A.transposed.rows = A.cols := rfl
  have e2 : A.transposed.cols = A.rows := rfl
  unfold matrixOneNorm matrixInfNorm
  simp only [e, e1, e2, or_comm, and_comm]

/-- **C08** `matrix_one_norm(A, init)` is `init` plus the largest column sum of magnitudes. -/
theorem C08_one_norm [AbsOps α] [LawfulAbs α] (A : MatV α) (init : ℝ) (h : Heap α)
    (f : Nat → Nat → α) (hA : A.Holds h f) :
    Ends (matrixOneNorm A init) h fun r h' => h' = h ∧
      ((A.rows = 0 ∨ A.cols = 0) → r = init) ∧
      (A.rows ≠ 0 → A.cols ≠ 0 →
        (∃ j < A.cols, r = init + ∑ i ∈ range A.rows, AbsOps.abs (f i j)) ∧
          ∀ j < A.cols, init + ∑ i ∈ range A.rows, AbsOps.abs (f i j) ≤ r) := by
  rw [C08_one_norm_eq_inf_norm_transposed]
  refine (C08_inf_norm A.transposed init h (fun i j => f j i) ?_).mono ?_
  · intro i j hi hj _
    exact hA j i hj hi trivial
  · rintro r h' ⟨e1, e2, e3⟩
    exact ⟨e1, fun e => e2 e.symm, fun a b => e3 b a⟩

example : Ends (matrixOneNorm (T.view : MatV ℂ) 1) (heap ℂ) fun r _ =>
    ∃ j < 2, r = 1 + ∑ i ∈ range 3, ‖mvals ℂ T i j‖ :=
  (C08_one_norm _ 1 _ _ (mholdsV bT)).mono fun _ _ r => (r.2.2 (by decide) (by decide)).1

end StdBLAS

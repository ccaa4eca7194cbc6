import Verif.Model.FloatReductions
import Verif.Lemmas.Norms

/-! # The reductions of `Model/FloatReductions.lean` as folds over the elements

`foldUp n step s` is `step (... (step (step s 0) 1) ...) (n - 1)`. -/

namespace StdBLAS
variable {α R : Type} {h : Heap α}

/-- A loop that carries a value. -/
def foldUp {σ : Type} : Nat → (σ → Nat → σ) → σ → σ
  | 0, _, s => s
  | n + 1, step, s => step (foldUp n step s) n

theorem foldl_range'_foldUp {σ : Type} (n : Nat) (step : σ → Nat → σ) (s : σ) :
    (List.range' 0 n).foldl step s = foldUp n step s := by
  rw [← List.range_eq_range']
  induction n with
  | zero => rfl
  | succ n ih => rw [List.range_succ, List.foldl_append, ih]; rfl

theorem foldUp_inv {σ : Type} {n : Nat} {step : σ → Nat → σ} (I : Nat → σ → Prop) {s : σ}
    (h0 : I 0 s) (hs : ∀ k s, k < n → I k s → I (k + 1) (step s k)) : I n (foldUp n step s) := by
  induction n with
  | zero => exact h0
  | succ n ih => exact hs n _ (by omega) (ih fun k s hk => hs k s (by omega))

/-- If `P` is kept by every step and established by one, it holds in the end. -/
theorem foldUp_reach {σ : Type} {n : Nat} {step : σ → Nat → σ} (P : σ → Prop) {s : σ}
    (keep : ∀ k s, k < n → P s → P (step s k)) (start : P s ∨ ∃ k, k < n ∧ ∀ s, P (step s k)) :
    P (foldUp n step s) := by
  induction n with
  | zero =>
    rcases start with h | ⟨k, hk, _⟩
    · exact h
    · omega
  | succ n ih =>
    by_cases hn : ∀ s, P (step s n)
    · exact hn _
    · refine keep n _ (by omega) (ih (fun k s hk => keep k s (by omega)) ?_)
      rcases start with h | ⟨k, hk, h⟩
      · exact Or.inl h
      · by_cases e : k = n
        · exact absurd (e ▸ h) hn
        · exact Or.inr ⟨k, by omega, h⟩

theorem foldUp_congr {σ : Type} {n : Nat} {step step' : σ → Nat → σ} {s : σ}
    (e : ∀ k s, k < n → step s k = step' s k) : foldUp n step s = foldUp n step' s := by
  induction n with
  | zero => rfl
  | succ n ih =>
    change step _ n = step' _ n
    rw [ih fun k s hk => e k s (by omega), e n _ (by omega)]

section
variable [Zero R] [One R] [Add R] [Mul R] [Div R] [FloatOps R] [MagOps α R]

/-- One step of `vector_sum_of_squares`. -/
def ssqStepOf (s : SumOfSquaresOf R) (a : R) : SumOfSquaresOf R :=
  if FloatOps.ne a 0 then
    if FloatOps.lt s.scalingFactor a then
      ⟨a, 1 + s.scaledSumOfSquares * (s.scalingFactor / a) * (s.scalingFactor / a)⟩
    else
      ⟨s.scalingFactor, s.scaledSumOfSquares + a / s.scalingFactor * (a / s.scalingFactor)⟩
  else s

theorem ssqOf_run {x : VecV α} {f : Nat → α} (hx : x.Holds h f) (init : SumOfSquaresOf R) :
    Ends (vectorSumOfSquaresOf x init) h fun r h' =>
      r = foldUp x.ext (fun s k => ssqStepOf s (MagOps.abs (f k))) init ∧ h' = h := by
  unfold vectorSumOfSquaresOf
  rw [← foldl_range'_foldUp]
  split
  · next e => simp [e]
  · refine ends_foldEach_read _ ?_
    intro k hk s
    have hk' : k < x.ext := by simpa using hk
    obtain ⟨v, hv, ev⟩ := hx k hk'
    simp only [ends_bind, ends_vecV_get]
    refine ⟨hk', v, hv, ?_⟩
    rw [ev]
    unfold ssqStepOf
    split
    · simp only [ends_bind, ends_vecV_get]
      refine ⟨hk', v, hv, ?_⟩
      rw [ev]
      split <;> simp
    · simp

theorem normOf_run {x : VecV α} {f : Nat → α} (hx : x.Holds h f) (init : R) :
    Ends (vectorTwoNormOf x init) h fun r h' =>
      (r = init + (foldUp x.ext (fun s k => ssqStepOf s (MagOps.abs (f k))) ⟨0, 1⟩).scalingFactor *
        FloatOps.sqrt (foldUp x.ext (fun s k => ssqStepOf s (MagOps.abs (f k)))
          (⟨0, 1⟩ : SumOfSquaresOf R)).scaledSumOfSquares) ∧ h' = h := by
  unfold vectorTwoNormOf
  rw [ends_bind]
  refine (ssqOf_run hx _).mono ?_
  rintro _ h' ⟨rfl, rfl⟩
  simp

omit [Zero R] [One R] [Mul R] [Div R] [FloatOps R] in
theorem absSumOf_run {v : VecV α} {f : Nat → α} (hv : v.Holds h f) (init : R) :
    Ends (vectorAbsSumOf v init) h fun r h' =>
      r = foldUp v.ext (fun s k => if MagOps.isArith α R then s + MagOps.abs (f k)
        else s + MagOps.absRe (f k) + MagOps.absIm (f k)) init ∧ h' = h := by
  unfold vectorAbsSumOf
  rw [← foldl_range'_foldUp]
  split
  · refine ends_foldEach_read _ ?_
    intro k hk s
    have hk' : k < v.ext := by simpa using hk
    obtain ⟨w, hw, ew⟩ := hv k hk'
    simp only [ends_bind, ends_vecV_get, ends_pure]
    exact ⟨hk', w, hw, by rw [ew], trivial⟩
  · refine ends_foldEach_read _ ?_
    intro k hk s
    have hk' : k < v.ext := by simpa using hk
    obtain ⟨w, hw, ew⟩ := hv k hk'
    simp only [ends_bind, ends_vecV_get, ends_pure]
    exact ⟨hk', w, hw, hk', w, hw, by rw [ew], trivial⟩

theorem frobOf_run {A : MatV α} {f : Nat → Nat → α} (hA : A.Holds h f) (init : R)
    (h0 : ¬ (A.rows = 0 ∨ A.cols = 0)) (h1 : ¬ (A.rows = 1 ∧ A.cols = 1)) :
    Ends (matrixFrobNormOf A init) h fun r h' =>
      (r = init + (foldUp A.rows (fun s i => foldUp A.cols (fun s j =>
          frobStepOf s (MagOps.abs (f i j))) s) ⟨0, 1⟩).scalingFactor *
        FloatOps.sqrt (foldUp A.rows (fun s i => foldUp A.cols (fun s j =>
          frobStepOf s (MagOps.abs (f i j))) s) (⟨0, 1⟩ : SumOfSquaresOf R)).scaledSumOfSquares) ∧
      h' = h := by
  unfold matrixFrobNormOf
  rw [if_neg h0, if_neg h1, ends_bind]
  refine Ends.mono (Q := fun s h' => s = foldUp A.rows (fun s i => foldUp A.cols (fun s j =>
          frobStepOf s (MagOps.abs (f i j))) s) (⟨0, 1⟩ : SumOfSquaresOf R) ∧ h' = h) ?_ ?_
  · rw [← foldl_range'_foldUp]
    refine ends_foldEach_read _ ?_
    intro i hi s
    have hi' : i < A.rows := by simpa using hi
    rw [← foldl_range'_foldUp]
    refine ends_foldEach_read _ ?_
    intro j hj s
    have hj' : j < A.cols := by simpa using hj
    obtain ⟨v, hv, ev⟩ := hA i j hi' hj' trivial
    simp only [ends_bind, ends_matV_get, ends_pure]
    exact ⟨⟨hi', hj'⟩, v, hv, by rw [ev], trivial⟩
  · rintro s h' ⟨rfl, rfl⟩
    simp

omit [Zero R] [One R] [Mul R] [Div R] [FloatOps R] in
theorem scalarNormOf_one {A : MatV α} {f : Nat → Nat → α} (hA : A.Holds h f) (init : R)
    (h0 : ¬ (A.rows = 0 ∨ A.cols = 0)) :
    Ends (do let a ← A.get 0 0; pure (init + (MagOps.abs a : R))) h fun r h' =>
      r = init + MagOps.abs (f 0 0) ∧ h' = h := by
  obtain ⟨v, hv, ev⟩ := hA 0 0 (by omega) (by omega) trivial
  simp only [ends_bind, ends_matV_get, ends_pure]
  exact ⟨⟨by omega, by omega⟩, v, hv, by rw [ev], trivial⟩

omit [Zero R] [One R] [Mul R] [Div R] in
theorem infOf_run {A : MatV α} {f : Nat → Nat → α} (hA : A.Holds h f) (init : R)
    (h0 : ¬ (A.rows = 0 ∨ A.cols = 0)) (h1 : ¬ (A.rows = 1 ∧ A.cols = 1)) :
    Ends (matrixInfNormOf A init) h fun r h' =>
      r = foldUp A.rows (fun r i =>
        stdMax (foldUp A.cols (fun s j => s + MagOps.abs (f i j)) init) r) init ∧ h' = h := by
  unfold matrixInfNormOf
  rw [if_neg h0, if_neg h1, ← foldl_range'_foldUp]
  refine ends_foldEach_read _ ?_
  intro i hi s
  have hi' : i < A.rows := by simpa using hi
  rw [ends_bind]
  refine Ends.mono (Q := fun s h' => s = foldUp A.cols (fun s j => s + MagOps.abs (f i j)) init ∧
    h' = h) ?_ ?_
  · rw [← foldl_range'_foldUp]
    refine ends_foldEach_read _ ?_
    intro j hj s
    have hj' : j < A.cols := by simpa using hj
    obtain ⟨v, hv, ev⟩ := hA i j hi' hj' trivial
    simp only [ends_bind, ends_matV_get, ends_pure]
    exact ⟨⟨hi', hj'⟩, v, hv, by rw [ev], trivial⟩
  · rintro s h' ⟨rfl, rfl⟩
    simp

omit [Zero R] [One R] [Mul R] [Div R] in
theorem oneOf_run {A : MatV α} {f : Nat → Nat → α} (hA : A.Holds h f) (init : R)
    (h0 : ¬ (A.rows = 0 ∨ A.cols = 0)) (h1 : ¬ (A.rows = 1 ∧ A.cols = 1)) :
    Ends (matrixOneNormOf A init) h fun r h' =>
      r = foldUp A.cols (fun r j =>
        stdMax (foldUp A.rows (fun s i => s + MagOps.abs (f i j)) init) r) init ∧ h' = h := by
  unfold matrixOneNormOf
  rw [if_neg h0, if_neg h1, ← foldl_range'_foldUp]
  refine ends_foldEach_read _ ?_
  intro j hj s
  have hj' : j < A.cols := by simpa using hj
  rw [ends_bind]
  refine Ends.mono (Q := fun s h' => s = foldUp A.rows (fun s i => s + MagOps.abs (f i j)) init ∧
    h' = h) ?_ ?_
  · rw [← foldl_range'_foldUp]
    refine ends_foldEach_read _ ?_
    intro i hi s
    have hi' : i < A.rows := by simpa using hi
    obtain ⟨v, hv, ev⟩ := hA i j hi' hj' trivial
    simp only [ends_bind, ends_matV_get, ends_pure]
    exact ⟨⟨hi', hj'⟩, v, hv, by rw [ev], trivial⟩
  · rintro s h' ⟨rfl, rfl⟩
    simp

end

theorem idxOf_run [Add R] [FloatOps R] [MagOps α R] {v : VecV α} {f : Nat → α}
    (hv : v.Holds h f) (sizeMax : Nat) (h0 : v.ext ≠ 0) :
    Ends (vectorIdxAbsMaxOf R sizeMax v) h fun r h' =>
      r = (foldUp (v.ext - 1) (fun s k => if FloatOps.lt s.2 (idxMagnitudeOf R (f (k + 1)))
        then (k + 1, idxMagnitudeOf R (f (k + 1))) else s) (0, idxMagnitudeOf R (f 0))).1 ∧
      h' = h := by
  unfold vectorIdxAbsMaxOf
  rw [if_neg h0]
  obtain ⟨w, hw, ew⟩ := hv 0 (by omega)
  simp only [ends_bind, ends_vecV_get]
  refine ⟨by omega, w, hw, ?_⟩
  rw [ew]
  refine Ends.mono (Q := fun s h' => s = (List.range' 1 (v.ext - 1)).foldl (fun s i =>
    if FloatOps.lt s.2 (idxMagnitudeOf R (f i)) then (i, idxMagnitudeOf R (f i)) else s)
    (0, idxMagnitudeOf R (f 0)) ∧ h' = h) ?_ ?_
  · refine ends_foldEach_read _ ?_
    intro i hi s
    have hi' : i < v.ext := by simp at hi; omega
    obtain ⟨w, hw, ew⟩ := hv i hi'
    simp only [ends_bind, ends_vecV_get]
    refine ⟨hi', w, hw, ?_⟩
    rw [ew]
    split <;> simp
  · rintro s h' ⟨rfl, rfl⟩
    rw [ends_pure]
    refine ⟨?_, rfl⟩
    rw [← foldl_range'_foldUp]
    have e : List.range' 1 (v.ext - 1) = (List.range' 0 (v.ext - 1)).map (· + 1) := by
      simp only [Nat.add_comm _ 1, List.map_add_range', Nat.add_zero]
    rw [e, List.foldl_map]

/-! ## With real numbers these are the functions of `Blas1.lean` -/

theorem vectorAbsSumOf_real [AbsOps α] (v : VecV α) (init : ℝ) :
    vectorAbsSumOf v init = vectorAbsSum v init := rfl

theorem stdMax_real (a b : ℝ) : stdMax a b = max a b := by
  unfold stdMax
  by_cases hab : a < b
  · rw [if_pos (by simpa [FloatOps.lt] using hab), max_eq_right hab.le]
  · rw [if_neg (by simpa [FloatOps.lt] using hab), max_eq_left (not_lt.1 hab)]

theorem matrixOneNormOf_real [AbsOps α] (A : MatV α) (init : ℝ) :
    matrixOneNormOf A init = matrixOneNorm A init := by
  unfold matrixOneNormOf matrixOneNorm
  simp only [stdMax_real]
  rfl

theorem matrixInfNormOf_real [AbsOps α] (A : MatV α) (init : ℝ) :
    matrixInfNormOf A init = matrixInfNorm A init := by
  unfold matrixInfNormOf matrixInfNorm
  simp only [stdMax_real]
  rfl

theorem vectorIdxAbsMaxOf_real [AbsOps α] (sizeMax : Nat) (v : VecV α) :
    vectorIdxAbsMaxOf ℝ sizeMax v = vectorIdxAbsMax sizeMax v := by
  unfold vectorIdxAbsMaxOf vectorIdxAbsMax
  congr 1
  simp only [FloatOps.lt, decide_eq_true_eq]
  rfl

theorem ssqStepOf_real (s : SumOfSquaresOf ℝ) (a : ℝ) :
    (⟨(ssqStepOf s a).scalingFactor, (ssqStepOf s a).scaledSumOfSquares⟩ : SumOfSquares) =
      ssqStep ⟨s.scalingFactor, s.scaledSumOfSquares⟩ a := by
  unfold ssqStepOf ssqStep
  simp only [FloatOps.ne, FloatOps.lt, decide_eq_true_eq]
  split
  · split <;> rfl
  · rfl

theorem frobStepOf_real (s : SumOfSquaresOf ℝ) (a : ℝ) :
    (⟨(frobStepOf s a).scalingFactor, (frobStepOf s a).scaledSumOfSquares⟩ : SumOfSquares) =
      frobFn ⟨s.scalingFactor, s.scaledSumOfSquares⟩ a := by
  unfold frobStepOf frobFn
  simp only [FloatOps.ne, FloatOps.lt, decide_eq_true_eq]
  split
  · split <;> rfl
  · rfl

theorem foldUp_sim {σ τ : Type} {n : Nat} {step : σ → Nat → σ} {step' : τ → Nat → τ}
    (φ : σ → τ) (e : ∀ k s, φ (step s k) = step' (φ s) k) (s : σ) :
    φ (foldUp n step s) = foldUp n step' (φ s) := by
  induction n with
  | zero => rfl
  | succ n ih =>
    change φ (step _ n) = step' _ n
    rw [e, ih]

/-- The view of a `sum_of_squares_result<Scalar>` with real `Scalar`. -/
def SumOfSquaresOf.real (s : SumOfSquaresOf ℝ) : SumOfSquares :=
  ⟨s.scalingFactor, s.scaledSumOfSquares⟩

theorem vectorSumOfSquaresOf_real [AbsOps α] [LawfulAbs α] (x : VecV α)
    (init : SumOfSquaresOf ℝ) (f : Nat → α) (hx : x.Holds h f) :
    ∃ r, Ends (vectorSumOfSquaresOf x init) h (fun s h' => s.real = r ∧ h' = h) ∧
      Ends (vectorSumOfSquares x init.real) h (fun s h' => s = r ∧ h' = h) := by
  refine ⟨_, ?_, ssq_run x init.real h f hx⟩
  refine (ssqOf_run hx init).mono ?_
  rintro _ _ ⟨rfl, rfl⟩
  refine ⟨?_, rfl⟩
  rw [foldl_range'_foldUp]
  exact foldUp_sim (step := fun s k => ssqStepOf s (MagOps.abs (f k)))
    (step' := fun s k => ssqStep s (AbsOps.abs (f k))) SumOfSquaresOf.real
    (fun _ s => ssqStepOf_real s _) init

theorem vectorTwoNormOf_real [AbsOps α] [LawfulAbs α] (x : VecV α) (init : ℝ) (f : Nat → α)
    (hx : x.Holds h f) :
    ∃ r, Ends (vectorTwoNormOf x init) h (fun s h' => s = r ∧ h' = h) ∧
      Ends (vectorTwoNorm x init) h (fun s h' => s = r ∧ h' = h) := by
  obtain ⟨r, h1, h2⟩ := vectorSumOfSquaresOf_real x ⟨0, 1⟩ f hx
  refine ⟨init + r.scalingFactor * Real.sqrt r.scaledSumOfSquares, ?_, ?_⟩
  · unfold vectorTwoNormOf
    rw [ends_bind]
    refine h1.mono ?_
    rintro s _ ⟨rfl, rfl⟩
    rw [ends_pure]
    exact ⟨rfl, rfl⟩
  · unfold vectorTwoNorm
    rw [ends_bind]
    refine Ends.mono h2 ?_
    rintro s _ ⟨rfl, rfl⟩
    rw [ends_pure]
    exact ⟨rfl, rfl⟩

theorem matrixFrobNormOf_real [AbsOps α] (A : MatV α) (init : ℝ) (f : Nat → Nat → α)
    (hA : A.Holds h f) :
    ∃ r, Ends (matrixFrobNormOf A init) h (fun s h' => s = r ∧ h' = h) ∧
      Ends (matrixFrobNorm A init) h (fun s h' => s = r ∧ h' = h) := by
  by_cases h0 : A.rows = 0 ∨ A.cols = 0
  · refine ⟨init, ?_, ?_⟩
    · unfold matrixFrobNormOf; rw [if_pos h0]; simp
    · unfold matrixFrobNorm; rw [if_pos h0]; simp
  by_cases h1 : A.rows = 1 ∧ A.cols = 1
  · refine ⟨init + AbsOps.abs (f 0 0), ?_, ?_⟩
    · unfold matrixFrobNormOf; rw [if_neg h0, if_pos h1]; exact scalarNormOf_one hA init h0
    · unfold matrixFrobNorm; rw [if_neg h0, if_pos h1]; exact scalarNormOf_one (R := ℝ) hA init h0
  refine ⟨_, frobOf_run hA init h0 h1, (frob_run A init h f hA h0 h1).mono ?_⟩
  rintro _ _ ⟨rfl, rfl⟩
  refine ⟨?_, rfl⟩
  have e : (rowMajor A.rows A.cols fun i j => AbsOps.abs (f i j)).foldl frobFn ⟨0, 1⟩ =
      (foldUp A.rows (fun s i => foldUp A.cols (fun s j =>
          frobStepOf s (MagOps.abs (f i j))) s) (⟨0, 1⟩ : SumOfSquaresOf ℝ)).real := by
    rw [foldl_rowMajor, foldl_range'_foldUp]
    refine (foldUp_sim (step := fun s i => foldUp A.cols (fun s j =>
        frobStepOf s (MagOps.abs (f i j))) s)
      (step' := fun s i => (List.range' 0 A.cols).foldl (fun s j =>
        frobFn s (AbsOps.abs (f i j))) s) SumOfSquaresOf.real (fun i s => ?_) ⟨0, 1⟩).symm
    rw [foldl_range'_foldUp]
    exact foldUp_sim (step := fun s j => frobStepOf s (MagOps.abs (f i j)))
      (step' := fun s j => frobFn s (AbsOps.abs (f i j))) SumOfSquaresOf.real
      (fun _ s => frobStepOf_real s _) s
  rw [e]
  rfl

end StdBLAS

import Verif.Model.GivensFloat
import Verif.Model.Givens

/-!
# The two models of `setup_givens_rotation`

With exact arithmetic the functions of `GivensFloat.lean` are those of `Givens.lean`.
-/

namespace StdBLAS
open Classical

theorem geOf_real (a b : ℝ) : geOf a b = decide (b ≤ a) := by
  unfold geOf
  simp only [FloatOps.lt, FloatOps.ne]
  rcases lt_trichotomy a b with h | h | h
  · simp [h.ne, not_lt.2 h.le, not_le.2 h]
  · simp [h]
  · simp [h, h.le]

theorem stdMax_real (a b : ℝ) : stdMax a b = max a b := by
  unfold stdMax
  simp only [FloatOps.lt]
  by_cases h : a < b
  · simp [h, max_eq_right h.le]
  · simp [h, max_eq_left (not_lt.1 h)]

theorem abs_real (a : ℝ) : FloatOps.abs a = |a| := rfl

theorem rescaleOf_real (keep : ℝ → Bool) (keep' : ℝ → Prop) (hk : ∀ s, keep s = true ↔ keep' s) (k : ℝ)
    (fuel : Nat) : ∀ (f g : ℝ) (n : Nat), rescaleOf keep k fuel f g n = rescaleLoop keep' k fuel f g n := by
  induction fuel with
  | zero => intro f g n; rfl
  | succ fuel ih =>
    intro f g n
    rw [rescaleOf, rescaleLoop]
    simp only [stdMax_real, abs_real, hk, ih]

theorem rescaleBackOf_real (k : ℝ) (n : Nat) : ∀ r : ℝ, rescaleBackOf k n r = scaleBack k n r := by
  induction n with
  | zero => intro r; rfl
  | succ n ih => intro r; rw [rescaleBackOf, scaleBack, ih]

theorem rotationOf_real (a b : ℝ) : rotationOf a b = plainRotation a b := rfl

/-- Real version. -/
theorem setupGivensOf_real (fuel : Nat) (safmn2 f g : ℝ) :
    setupGivensOf fuel safmn2 f g = setupGivensReal fuel safmn2 f g := by
  unfold setupGivensOf setupGivensReal givensCore
  simp only [geOf_real, stdMax_real, abs_real, rescaleBackOf_real, rotationOf_real,
    rescaleOf_real (fun s => decide (1 / safmn2 ≤ s)) (fun s => s ≥ 1 / safmn2) (by simp),
    rescaleOf_real (fun s => decide (s ≤ safmn2)) (fun s => s ≤ safmn2) (by simp),
    FloatOps.ne, FloatOps.lt, decide_eq_true_eq, Bool.not_eq_true', decide_eq_false_iff_not, not_not,
    Bool.and_eq_true, ge_iff_le, gt_iff_lt]
  split_ifs <;> simp_all [Option.bind_assoc]

/-- Real and imaginary part. -/
def parts (z : ℂ) : ℝ × ℝ := (z.re, z.im)

theorem rescaleCplxOf_real (keep : ℝ → Bool) (keep' : ℝ → Prop) (hk : ∀ s, keep s = true ↔ keep' s)
    (k : ℝ) (fuel : Nat) : ∀ (f g : ℂ) (s : ℝ) (n : Nat),
      rescaleCplxOf keep k fuel (parts f) (parts g) s n =
        (rescaleLoopC keep' k fuel f g s n).map fun t => (parts t.1, parts t.2.1, t.2.2) := by
  induction fuel with
  | zero => intro f g s n; rfl
  | succ fuel ih =>
    intro f g s n
    rw [rescaleCplxOf, rescaleLoopC]
    have e : ∀ z : ℂ, ((parts z).1 * k, (parts z).2 * k) = parts (z * (k : ℂ)) := by
      intro z; simp [parts]
    simp only [e, hk, ih]
    split_ifs
    · rfl
    · rfl

theorem iterate_parts (k : ℝ) (n : Nat) : ∀ z : ℂ,
    (rescaleBackOf k n z.re, rescaleBackOf k n z.im) = parts ((fun w : ℂ => w * (k : ℂ))^[n] z) := by
  induction n with
  | zero => intro z; rfl
  | succ n ih =>
    intro z
    rw [rescaleBackOf, rescaleBackOf, Function.iterate_succ_apply, ← ih]
    simp

theorem isZero_real (f : ℂ) :
    (!FloatOps.ne (parts f).1 0 && !FloatOps.ne (parts f).2 0) = decide (f = 0) := by
  have h0 : (f.re = 0 ∧ f.im = 0) ↔ f = 0 := by
    constructor
    · rintro ⟨a, b⟩; exact Complex.ext a b
    · rintro rfl; exact ⟨rfl, rfl⟩
  have e : ∀ a : ℝ, (!FloatOps.ne a 0) = decide (a = 0) := by
    intro a
    simp only [FloatOps.ne]
    by_cases h : a = 0 <;> simp [h]
  rw [e, e, ← Bool.decide_and]
  exact decide_eq_decide.2 h0

theorem givensTailOf_real (safmin safmn2 safmx2 : ℝ) (f g fs gs : ℂ) (up down : Nat) :
    givensTailOf hypot safmin safmn2 safmx2 (parts f) (parts g) (parts fs) (parts gs) up down =
      let t := givensComplexTail safmin safmn2 safmx2 f g fs gs up down
      (t.1, parts t.2.1, parts t.2.2) := by
  unfold givensTailOf givensComplexTail
  rw [isZero_real]
  simp only [geOf_real, stdMax_real, FloatOps.lt, FloatOps.sqrt, abs1Of, abs_real,
    decide_eq_true_eq, parts, abssqOf, abssq, abs1, gt_iff_lt, downIterations]
  split_ifs
  · simp
  · simp [cmulOf]
  · simp [cmulOf]
  · simp only [cmulOf, Complex.mul_re, Complex.mul_im, Complex.conj_re, Complex.conj_im]
    exact Prod.ext rfl (Prod.ext rfl (iterate_parts safmx2 up ⟨_, _⟩))
  · simp only [cmulOf, Complex.mul_re, Complex.mul_im, Complex.conj_re, Complex.conj_im]
    exact Prod.ext rfl (Prod.ext rfl (iterate_parts safmn2 (2 - down) ⟨_, _⟩))
  · simp only [cmulOf, Complex.mul_re, Complex.mul_im, Complex.conj_re, Complex.conj_im]

/-- Complex version; `hypot` is exact and nothing is NaN. -/
theorem setupGivensCplxOf_real (fuel : Nat) (safmin safmn2 : ℝ) (f g : ℂ) :
    setupGivensCplxOf hypot fuel safmin safmn2 (parts f) (parts g) false =
      (setupGivensComplex fuel safmin safmn2 f g).map fun t => (t.1, parts t.2.1, parts t.2.2) := by
  unfold setupGivensCplxOf setupGivensComplex
  have e1 : ∀ z : ℂ, abs1Of (parts z).1 (parts z).2 = abs1 z := by
    intro z; simp only [abs1Of, stdMax_real, abs_real, parts, abs1]
  rw [isZero_real]
  simp only [e1, geOf_real, stdMax_real,
    rescaleCplxOf_real (fun s => decide (1 / safmn2 ≤ s)) (fun s => s ≥ 1 / safmn2) (by simp),
    rescaleCplxOf_real (fun s => decide (s ≤ safmn2)) (fun s => s ≤ safmn2) (by simp),
    decide_eq_true_eq, Bool.or_false, ge_iff_le]
  split_ifs
  · cases rescaleLoopC (fun s => 1 / safmn2 ≤ s) safmn2 fuel f g (max (abs1 f) (abs1 g)) 0 with
    | none => rfl
    | some t =>
      simp only [Option.map_some, Option.bind_eq_bind, Option.bind_some, givensTailOf_real]
  · simp [parts]
  · cases rescaleLoopC (fun s => s ≤ safmn2) (1 / safmn2) fuel f g (max (abs1 f) (abs1 g)) 0 with
    | none => rfl
    | some t =>
      simp only [Option.map_some, Option.bind_eq_bind, Option.bind_some, givensTailOf_real]
  · simp only [Option.map_some, givensTailOf_real]

end StdBLAS

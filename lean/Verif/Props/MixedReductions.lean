import Verif.Props.MixedExact

/-!
# Property C57: absolute sums and two-norms with mixed element types
-/

namespace StdBLAS
open Witness Finset

section
variable {D Ty : Type} [MixedOps D Ty] [MixedMag D Ty]

/-- **C57** `vector_abs_sum(v, init)`: the magnitudes are added from left to right, each partial sum
is converted to the type of `init`. -/
theorem C57_vector_abs_sum (v : VecV D) (init : D) (h : Heap D) (f : Nat → D) (hv : v.Holds h f) :
    Ends (Mixed.vectorAbsSum (MixedOps.ty init) v init) h fun r h' =>
      r = leftSumAs (MixedOps.ty init) init v.ext (fun k => MixedMag.abs (f k)) ∧ h' = h := by
  have key : ∀ n, leftSumAs (MixedOps.ty init) init n (fun k => MixedMag.abs (f k)) =
      (List.range' 0 n).foldl
        (fun s k => MixedOps.conv (MixedOps.ty init) (s + MixedMag.abs (f k))) init := by
    intro n
    rw [← List.range_eq_range']
    induction n with
    | zero => rfl
    | succ n ih => rw [List.range_succ, List.foldl_append, ← ih]; rfl
  rw [key]
  unfold Mixed.vectorAbsSum
  refine ends_foldEach_read _ ?_
  intro k hk s
  have hk' : k < v.ext := by simpa using hk
  obtain ⟨w, hw, ew⟩ := hv k hk'
  simp only [ends_bind, ends_vecV_get, ends_pure]
  exact ⟨hk', w, hw, by rw [ew], trivial⟩

example : Ends (Mixed.vectorAbsSum .real (x.view : VecV Num) (.real 5)) (heap Num) fun r h' =>
    r = leftSumAs .real (.real 5) 3 (fun k => MixedMag.abs (vals Num x k)) ∧ h' = heap Num :=
  C57_vector_abs_sum _ _ _ _ (holdsV bx)

/-- **C57** the result of `vector_abs_sum` has the type of `init`. -/
theorem C57_vector_abs_sum_type [LawfulMixed D Ty] (v : VecV D) (init : D) (h : Heap D)
    (f : Nat → D) (hv : v.Holds h f) :
    Ends (Mixed.vectorAbsSum (MixedOps.ty init) v init) h fun r _ =>
      MixedOps.ty r = MixedOps.ty init :=
  (C57_vector_abs_sum v init h f hv).mono fun _ _ hb => by
    rw [hb.1]; exact ty_leftSumAs _ _ _ _ rfl

example : Ends (Mixed.vectorAbsSum .int (y.view : VecV Num) (.int 5)) (heap Num) fun r _ =>
    r.type = .int :=
  C57_vector_abs_sum_type _ _ _ _ (holdsV by_)

end

namespace Num

/-- The magnitude of a number. -/
theorem val_abs (a : Num) : (MixedMag.abs a).val = (‖a.val‖ : ℝ) := by
  cases a with
  | int z =>
    show (((|z| : ℤ)) : ℂ) = ((‖(z : ℂ)‖ : ℝ) : ℂ)
    rw [Complex.norm_intCast, ← Int.cast_abs]; norm_cast
  | real x =>
    show ((|x| : ℝ) : ℂ) = ((‖(x : ℂ)‖ : ℝ) : ℂ)
    rw [Complex.norm_real]; rfl
  | complex z => rfl

theorem abs_fits {a : Num} {t : NumTy} (h : Fits a.type t) : Fits (MixedMag.abs a).type t := by
  revert h; unfold Fits
  cases a <;> cases t <;> simp [type, common, MixedMag.abs]

end Num

/-- **C57** `vector_abs_sum` is exact if the elements of the vector fit into the type of `init`. -/
theorem C57_vector_abs_sum_exact (v : VecV Num) (init : Num) (h : Heap Num) (f : Nat → Num)
    (hv : v.Holds h f) (hf : ∀ k < v.ext, Num.Fits (f k).type init.type) :
    Ends (Mixed.vectorAbsSum init.type v init) h fun r h' =>
      r.val = init.val + ∑ k ∈ range v.ext, ((‖(f k).val‖ : ℝ) : ℂ) ∧ h' = h :=
  (C57_vector_abs_sum v init h f hv).mono fun _ _ hb => by
    refine ⟨?_, hb.2⟩
    rw [hb.1]
    refine (Num.val_leftSumAs (t := init.type) rfl fun k hk => Num.abs_fits (hf k hk)).trans ?_
    simp only [Num.val_abs]

example : Ends (Mixed.vectorAbsSum .real (x.view : VecV Num) (.real (5/2))) (heap Num) fun r h' =>
    r.val = (Num.real (5/2)).val + ∑ k ∈ range 3, ((‖(vals Num x k).val‖ : ℝ) : ℂ) ∧
      h' = heap Num :=
  C57_vector_abs_sum_exact _ (.real (5/2)) _ _ (holdsV bx)
    (fun k hk => by rw [vals_type_x hk]; rfl)

/-! ## The two-norm -/

theorem Num.toReal_abs (a : Num) : (MixedMag.abs a).toReal = ‖a.val‖ := by
  cases a with
  | int z =>
    show (((|z| : ℤ)) : ℝ) = ‖(z : ℂ)‖
    rw [Complex.norm_intCast]; push_cast; rfl
  | real x =>
    show |x| = ‖(x : ℂ)‖
    rw [Complex.norm_real]; rfl
  | complex z => rfl

/-- The steps of the loop with a real scale and a real sum of squares. -/
theorem mixed_ssq_run (x : VecV Num) (h : Heap Num) (f : Nat → Num) (hx : x.Holds h f)
    (s t : ℝ) :
    Ends (Mixed.vectorSumOfSquares .real x ⟨.real s, .real t⟩) h fun r h' =>
      (let q := (List.range' 0 x.ext).foldl (fun s k => ssqStep s ‖(f k).val‖) ⟨s, t⟩
       r = ⟨.real q.scalingFactor, .real q.scaledSumOfSquares⟩) ∧ h' = h := by
  unfold Mixed.vectorSumOfSquares
  split
  · next e => simp [e]
  · have key : ∀ (l : List Nat), (∀ k ∈ l, k < x.ext) → ∀ s : SumOfSquares,
        Ends (foldEach l (⟨.real s.scalingFactor, .real s.scaledSumOfSquares⟩ : SumOfSquaresOf Num)
          fun s i => do
            let v ← x.get i
            if MixedMag.isZero (MixedMag.abs v) then pure s else do
              let v ← x.get i
              let absxi := MixedMag.abs v
              if MixedMag.lt s.scalingFactor absxi then
                let quotient := s.scalingFactor / absxi
                pure ⟨MixedOps.conv .real absxi, MixedOps.conv .real
                  (MixedMag.one .real + s.scaledSumOfSquares * quotient * quotient)⟩
              else
                let quotient := absxi / s.scalingFactor
                pure ⟨s.scalingFactor,
                  MixedOps.conv .real (s.scaledSumOfSquares + quotient * quotient)⟩) h
          fun r h' => (let q := l.foldl (fun s k => ssqStep s ‖(f k).val‖) s
            r = ⟨.real q.scalingFactor, .real q.scaledSumOfSquares⟩) ∧ h' = h := by
      intro l
      induction l with
      | nil => intro _ s; simp [foldEach]
      | cons k l ih =>
        intro hl s
        have hk := hl k (by simp)
        obtain ⟨v, hv, ev⟩ := hx k hk
        have iz : MixedMag.isZero (MixedMag.abs (f k)) = true ↔ ‖(f k).val‖ = 0 := by
          rw [← Num.toReal_abs]; exact decide_eq_true_iff
        have lt : MixedMag.lt (Num.real s.scalingFactor) (MixedMag.abs (f k)) = true ↔
            s.scalingFactor < ‖(f k).val‖ := by
          rw [← Num.toReal_abs]; exact decide_eq_true_iff
        have cv : MixedOps.conv NumTy.real (MixedMag.abs (f k)) = Num.real ‖(f k).val‖ := by
          rw [← Num.toReal_abs]; rfl
        have q1 : Num.real s.scalingFactor / MixedMag.abs (f k) =
            Num.real (s.scalingFactor / ‖(f k).val‖) := by
          rw [← Num.toReal_abs]
          cases f k <;> rfl
        have q2 : MixedMag.abs (f k) / Num.real s.scalingFactor =
            Num.real (‖(f k).val‖ / s.scalingFactor) := by
          rw [← Num.toReal_abs]
          cases f k <;> rfl
        have ih' := ih fun j hj => hl j (by simp [hj])
        simp only [foldEach, ends_bind, ends_vecV_get, List.foldl_cons]
        refine ⟨hk, v, hv, ?_⟩
        rw [ev]
        by_cases hz : ‖(f k).val‖ = 0
        · rw [if_pos (iz.2 hz), ends_pure]
          have e : ssqStep s ‖(f k).val‖ = s := by
            unfold ssqStep; rw [if_neg (by simp [hz])]
          rw [e]
          exact ih' s
        · rw [if_neg (fun h => hz (iz.1 h))]
          simp only [ends_bind, ends_vecV_get]
          refine ⟨hk, v, hv, ?_⟩
          rw [ev]
          by_cases hlt : s.scalingFactor < ‖(f k).val‖
          · rw [if_pos (lt.2 hlt), ends_pure, cv, q1]
            have e : ssqStep s ‖(f k).val‖ = ⟨‖(f k).val‖, 1 + s.scaledSumOfSquares *
                (s.scalingFactor / ‖(f k).val‖) * (s.scalingFactor / ‖(f k).val‖)⟩ := by
              unfold ssqStep; rw [if_pos hz, if_pos hlt]
            rw [e]
            exact ih' ⟨_, _⟩
          · rw [if_neg (fun h => hlt (lt.1 h)), ends_pure, q2]
            have e : ssqStep s ‖(f k).val‖ = ⟨s.scalingFactor, s.scaledSumOfSquares +
                (‖(f k).val‖ / s.scalingFactor) * (‖(f k).val‖ / s.scalingFactor)⟩ := by
              unfold ssqStep; rw [if_pos hz, if_neg hlt]
            rw [e]
            exact ih' ⟨s.scalingFactor, s.scaledSumOfSquares +
              (‖(f k).val‖ / s.scalingFactor) * (‖(f k).val‖ / s.scalingFactor)⟩
    exact key _ (fun k hk => by simpa using hk) ⟨s, t⟩

/-- **C57** `vector_two_norm(x, init)` with a real `init` is exact whatever the types of the
elements: integers, reals and complex numbers. -/
theorem C57_vector_two_norm_exact (x : VecV Num) (init : ℝ) (h : Heap Num) (f : Nat → Num)
    (hx : x.Holds h f) :
    Ends (Mixed.vectorTwoNorm .real x (.real init)) h fun r h' =>
      r = .real (init + Real.sqrt (∑ k ∈ range x.ext, ‖(f k).val‖ ^ 2)) ∧ h' = h := by
  unfold Mixed.vectorTwoNorm
  rw [ends_bind]
  refine (mixed_ssq_run x h f hx 0 1).mono ?_
  rintro _ h' ⟨e, rfl⟩
  rw [e, ends_pure]
  refine ⟨?_, rfl⟩
  have hI := foldl_range_inv (n := x.ext) (step := fun s k => ssqStep s ‖(f k).val‖)
    (s := ⟨0, 1⟩)
    (I := fun m s => s.total = ∑ k ∈ range m, ‖(f k).val‖ ^ 2 ∧ 0 ≤ s.scalingFactor)
    (by simp [SumOfSquares.total])
    (fun k s _ hs => by
      refine ⟨?_, ?_⟩
      · rw [ssqStep_total _ _ (norm_nonneg _), hs.1, sum_range_succ]
      · rw [ssqStep_scale _ _ hs.2]; exact le_max_of_le_left hs.2)
  rw [← hI.1, SumOfSquares.total, Real.sqrt_mul (sq_nonneg _), Real.sqrt_sq hI.2]
  rfl

example : Ends (Mixed.vectorTwoNorm .real (x.view : VecV Num) (.real (5/2))) (heap Num)
    fun r h' => r = .real (5/2 + Real.sqrt (∑ k ∈ range 3, ‖(vals Num x k).val‖ ^ 2)) ∧
      h' = heap Num :=
  C57_vector_two_norm_exact _ _ _ _ (holdsV bx)

/-- **C57** `vector_two_norm(x)` is exact for elements whose magnitude is a real: the result type is
then the type of the magnitude.  (`C57_vector_two_norm_int_false`: not so for integers.) -/
theorem C57_vector_two_norm_without_init (x : VecV Num) (h : Heap Num) (f : Nat → Num)
    (hx : x.Holds h f) :
    Ends (Mixed.vectorTwoNorm0 .real x) h fun r h' =>
      r = .real (Real.sqrt (∑ k ∈ range x.ext, ‖(f k).val‖ ^ 2)) ∧ h' = h :=
  (C57_vector_two_norm_exact x 0 h f hx).mono fun _ _ hb => by rwa [zero_add] at hb

example : Ends (Mixed.vectorTwoNorm0 .real (y.view : VecV Num)) (heap Num)
    fun r h' => r = .real (Real.sqrt (∑ k ∈ range 3, ‖(vals Num y k).val‖ ^ 2)) ∧
      h' = heap Num :=
  C57_vector_two_norm_without_init _ _ _ (holdsV by_)

end StdBLAS

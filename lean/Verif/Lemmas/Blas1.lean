import Mathlib.Tactic.Ring
import Mathlib.Tactic.Linarith
import Mathlib.Tactic.FieldSimp
import Verif.Lemmas.Loops
import Verif.Model.Blas1
import Verif.Spec.LinAlg

/-! # Lemmas for BLAS 1 -/

namespace StdBLAS
open Finset
variable {α ι σ : Type} {h : Heap α}

theorem Vec.view_toVec (x : Vec) : (x.view : VecV α).toVec = x := rfl

/-- Reading `x(i)` after other elements of an aligned output were written. -/
theorem Vec.Aligned.read {x z : Vec} (hal : x.Aligned z) {h0 h : Heap α}
    (hc : OnlyChanges z.Cell h0 h) {i : Nat} (hi : i < x.ext)
    (hzi : i < z.ext → h (z.addr i) = h0 (z.addr i)) : h (x.addr i) = h0 (x.addr i) := by
  by_cases hz : z.Cell (x.addr i)
  · obtain ⟨k, hk, e⟩ := hz
    obtain rfl := hal i k hi hk e.symm
    rw [← e]; exact hzi hk
  · exact hc _ hz

theorem Mat.Aligned.read {A C : Mat} (hal : A.Aligned C) {h0 h : Heap α}
    (hc : OnlyChanges C.Cell h0 h) {i j : Nat} (hi : i < A.rows) (hj : j < A.cols)
    (hzi : i < C.rows → j < C.cols → h (C.addr i j) = h0 (C.addr i j)) :
    h (A.addr i j) = h0 (A.addr i j) := by
  by_cases hz : C.Cell (A.addr i j)
  · obtain ⟨k, l, hk, hl, _, e⟩ := hz
    obtain ⟨rfl, rfl⟩ := hal i j k l hi hj hk hl e.symm
    rw [← e]; exact hzi hk hl
  · exact hc _ hz

theorem foldEach_append (l l' : List ι) (s : σ) (body : σ → ι → Prog α σ) :
    foldEach (l ++ l') s body = (foldEach l s body >>= fun s' => foldEach l' s' body) := by
  induction l generalizing s with
  | nil => funext h; rfl
  | cons i l ih =>
    change (body s i >>= fun s' => foldEach (l ++ l') s' body) =
      ((body s i >>= fun s' => foldEach l s' body) >>= fun s' => foldEach l' s' body)
    simp only [ih]
    funext h
    change Prog.seq _ _ h = Prog.seq (Prog.seq _ _) _ h
    unfold Prog.seq
    cases body s i h <;> rfl

theorem fails_bind {β γ : Type} {p : Prog α β} {f : β → Prog α γ} {e : Err}
    (hp : Ends p h (fun b h' => Fails (f b) h' e)) : Fails (p >>= f) h e := by
  obtain ⟨b, h', e1, e2⟩ := hp
  change Prog.seq p f h = _
  unfold Prog.seq
  rw [e1]; exact e2

theorem fails_bind_left {β γ : Type} {p : Prog α β} {f : β → Prog α γ} {e : Err}
    (hp : Fails p h e) : Fails (p >>= f) h e := by
  change Prog.seq p f h = _
  unfold Prog.seq
  unfold Fails at hp
  rw [hp]

theorem fails_vecV_get {x : VecV α} {i : Nat} (hi : x.ext ≤ i) : Fails (x.get i) h .ub := by
  unfold Fails VecV.get
  rw [if_neg (by omega)]; rfl

/-- A sum as the loops compute it. -/
theorem foldl_add_eq_sum [AddCommMonoid α] (n : Nat) (f : Nat → α) (init : α) :
    (List.range' 0 n).foldl (fun s k => s + f k) init = init + ∑ k ∈ range n, f k := by
  rw [← List.range_eq_range']
  induction n with
  | zero => simp
  | succ n ih => rw [List.range_succ, List.foldl_append, ih, sum_range_succ]; simp [add_assoc]

/-- `dot` computes the left-to-right fold: no algebraic law is used. -/
theorem dot_fold [Add α] [Mul α] (v1 v2 : VecV α) (init : α) (h : Heap α) (f g : Nat → α)
    (h1 : v1.Holds h f) (h2 : v2.Holds h g) (hext : v1.ext ≤ v2.ext) :
    Ends (dot v1 v2 init) h (fun r h' =>
      r = (List.range' 0 v1.ext).foldl (fun s k => s + f k * g k) init ∧ h' = h) := by
  refine ends_foldEach_read (fun s k => s + f k * g k) ?_
  intro k hk s
  have hk' : k < v1.ext := by simpa using hk
  obtain ⟨v, hv, ev⟩ := h1 k hk'
  obtain ⟨w, hw, ew⟩ := h2 k (by omega)
  simp only [ends_bind, ends_vecV_get, ends_pure]
  exact ⟨hk', v, hv, by omega, w, hw, by rw [ev, ew], trivial⟩

/-- One step of the scaled sum of squares, as a function. -/
noncomputable def ssqStep (s : SumOfSquares) (a : ℝ) : SumOfSquares :=
  open Classical in
  if a ≠ 0 then
    if s.scalingFactor < a then
      ⟨a, 1 + s.scaledSumOfSquares * (s.scalingFactor / a) * (s.scalingFactor / a)⟩
    else ⟨s.scalingFactor, s.scaledSumOfSquares + (a / s.scalingFactor) * (a / s.scalingFactor)⟩
  else s

/-- Square of the quantity represented. -/
noncomputable def SumOfSquares.total (s : SumOfSquares) : ℝ :=
  s.scalingFactor ^ 2 * s.scaledSumOfSquares

theorem ssqStep_total (s : SumOfSquares) (a : ℝ) (ha : 0 ≤ a) :
    (ssqStep s a).total = s.total + a ^ 2 := by
  unfold ssqStep SumOfSquares.total
  split
  · next hne =>
    have hpos : 0 < a := lt_of_le_of_ne ha (Ne.symm hne)
    split
    · field_simp; ring
    · next hlt =>
      have : 0 < s.scalingFactor := by linarith
      field_simp
  · next hne =>
    have : a = 0 := by simpa using hne
    simp [this]

theorem ssqStep_scale (s : SumOfSquares) (a : ℝ) (hs : 0 ≤ s.scalingFactor) :
    (ssqStep s a).scalingFactor = max s.scalingFactor a := by
  unfold ssqStep
  split
  · split
    · next h => simp [max_eq_right h.le]
    · next h => simp [max_eq_left (not_lt.1 h)]
  · next hne =>
    have : a = 0 := by simpa using hne
    simp [this, hs]

theorem ssqStep_ssq (s : SumOfSquares) (a : ℝ) (hs : 0 ≤ s.scalingFactor) (ha : 0 ≤ a)
    (hq : 1 ≤ s.scaledSumOfSquares) :
    1 ≤ (ssqStep s a).scaledSumOfSquares ∧
      (ssqStep s a).scaledSumOfSquares ≤ s.scaledSumOfSquares + 1 := by
  unfold ssqStep
  split
  · next hne =>
    have hpos : 0 < a := lt_of_le_of_ne ha (Ne.symm hne)
    split
    · next h =>
      have h0 : 0 ≤ s.scalingFactor / a := div_nonneg hs ha
      have h1 : s.scalingFactor / a ≤ 1 := by rw [div_le_one hpos]; exact h.le
      constructor
      · have : 0 ≤ s.scaledSumOfSquares * (s.scalingFactor / a) * (s.scalingFactor / a) := by
          positivity
        simp only; linarith
      · have h2 : (s.scalingFactor / a) * (s.scalingFactor / a) ≤ 1 := by nlinarith
        have : s.scaledSumOfSquares * ((s.scalingFactor / a) * (s.scalingFactor / a))
            ≤ s.scaledSumOfSquares * 1 :=
          mul_le_mul_of_nonneg_left h2 (by linarith)
        simp only; rw [mul_assoc]; linarith
    · next h =>
      have hsp : 0 < s.scalingFactor := by linarith
      have h0 : 0 ≤ a / s.scalingFactor := by positivity
      have h1 : a / s.scalingFactor ≤ 1 := by rw [div_le_one hsp]; linarith
      constructor <;> simp only <;> nlinarith
  · exact ⟨hq, by linarith⟩

theorem ssq_run [AbsOps α] [LawfulAbs α] (x : VecV α) (init : SumOfSquares) (h : Heap α)
    (f : Nat → α) (hx : x.Holds h f) :
    Ends (vectorSumOfSquares x init) h (fun r h' =>
      r = (List.range' 0 x.ext).foldl (fun s k => ssqStep s (AbsOps.abs (f k))) init ∧ h' = h) := by
  unfold vectorSumOfSquares
  split
  · next e => simp [e]
  · refine ends_foldEach_read _ ?_
    intro k hk s
    have hk' : k < x.ext := by simpa using hk
    obtain ⟨v, hv, ev⟩ := hx k hk'
    simp only [ends_bind, ends_vecV_get]
    refine ⟨hk', v, hv, ?_⟩
    rw [ev]
    have h0 := LawfulAbs.abs_nonneg (f k)
    unfold ssqStep
    split
    · next hne =>
      split
      · simp [hne]
      · next hlt =>
        have : s.scalingFactor ≠ 0 := by
          have : 0 < AbsOps.abs (f k) := lt_of_le_of_ne h0 (Ne.symm hne)
          intro e; linarith
        simp [this]
    · simp

theorem foldl_inv {τ : Type} {l : List ι} {step : τ → ι → τ} (I : τ → Prop) {s : τ} (h0 : I s)
    (hs : ∀ s i, i ∈ l → I s → I (step s i)) : I (l.foldl step s) := by
  induction l generalizing s with
  | nil => exact h0
  | cons i l ih =>
    exact ih (hs s i (by simp) h0) fun s j hj => hs s j (by simp [hj])

/-- Invariant for folds over an initial segment. -/
theorem foldl_range_inv {τ : Type} {n : Nat} {step : τ → Nat → τ} (I : Nat → τ → Prop) {s : τ}
    (h0 : I 0 s) (hs : ∀ k s, k < n → I k s → I (k + 1) (step s k)) :
    I n ((List.range' 0 n).foldl step s) := by
  rw [← List.range_eq_range']
  induction n with
  | zero => simpa using h0
  | succ n ih =>
    rw [List.range_succ, List.foldl_append]
    exact hs n _ (by omega) (ih fun k s hk => hs k s (by omega))

end StdBLAS

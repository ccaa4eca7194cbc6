import Verif.Lemmas.MixedSolve
import Verif.Lemmas.Ordered
import Verif.Lemmas.Rounding
import Mathlib.Tactic.Linarith
import Mathlib.Tactic.Ring
import Mathlib.Tactic.Positivity

/-! # Types, exactness and rounding of sums with conversions -/

namespace StdBLAS
open Finset

theorem ty_leftSumAs {D T : Type} [MixedOps D T] [LawfulMixed D T] (t : T) (s : D) (n : Nat)
    (f : Nat → D) (hs : MixedOps.ty s = t) : MixedOps.ty (leftSumAs t s n f) = t := by
  cases n with
  | zero => exact hs
  | succ n => exact LawfulMixed.ty_conv ..

theorem ty_leftDiffAs {D T : Type} [MixedOps D T] [LawfulMixed D T] (t : T) (s : D) (n : Nat)
    (f : Nat → D) (hs : MixedOps.ty s = t) : MixedOps.ty (leftDiffAs t s n f) = t := by
  cases n with
  | zero => exact hs
  | succ n => exact LawfulMixed.ty_conv ..

theorem ty_solveRowAs {D T : Type} [MixedOps D T] [LawfulMixed D T] (s x : T) (t : Triangle)
    (d : Diag) (n i : Nat) (term : Nat → D) (b diag : D) :
    MixedOps.ty (solveRowAs s x t d n i term b diag) = x := LawfulMixed.ty_conv ..

namespace Num

theorem val_add (a b : Num) : (a + b).val = a.val + b.val := by
  show (op _ _ _ a b).val = _
  cases a <;> cases b <;> simp [op, val, toReal]
theorem val_sub (a b : Num) : (a - b).val = a.val - b.val := by
  show (op _ _ _ a b).val = _
  cases a <;> cases b <;> simp [op, val, toReal]
theorem val_mul (a b : Num) : (a * b).val = a.val * b.val := by
  show (op _ _ _ a b).val = _
  cases a <;> cases b <;> simp [op, val, toReal]
/-- Division is exact unless both operands are integers. -/
theorem val_div (a b : Num) (h : a.type ≠ .int) : (a / b).val = a.val / b.val := by
  show (op _ _ _ a b).val = _
  cases a <;> cases b <;> simp_all [op, val, toReal, type]

theorem type_add (a b : Num) : (a + b).type = common a.type b.type := by
  show (op _ _ _ a b).type = _
  cases a <;> cases b <;> rfl
theorem type_sub (a b : Num) : (a - b).type = common a.type b.type := by
  show (op _ _ _ a b).type = _
  cases a <;> cases b <;> rfl
theorem type_mul (a b : Num) : (a * b).type = common a.type b.type := by
  show (op _ _ _ a b).type = _
  cases a <;> cases b <;> rfl
theorem type_div (a b : Num) : (a / b).type = common a.type b.type := by
  show (op _ _ _ a b).type = _
  cases a <;> cases b <;> rfl

theorem Fits.refl (t : NumTy) : Fits t t := by cases t <;> rfl
theorem Fits.common {s t u : NumTy} (h1 : Fits s u) (h2 : Fits t u) : Fits (common s t) u := by
  revert h1 h2; unfold Fits; cases s <;> cases t <;> cases u <;> decide
theorem Fits.ne_int {s t : NumTy} (h : Fits s t) (hs : s ≠ .int) : t ≠ .int := by
  revert h hs; unfold Fits; cases s <;> cases t <;> decide

theorem val_conv (t : NumTy) (a : Num) (h : Fits a.type t) : (MixedOps.conv t a).val = a.val := by
  show (cast t a).val = _
  revert h; unfold Fits
  cases t <;> cases a <;> simp [cast, val, toReal, type, Num.common]

theorem val_zero (t : NumTy) : (MixedOps.zero (D := Num) t).val = 0 := by
  cases t <;> simp [MixedOps.zero, val]

theorem val_leftSumAs {t : NumTy} {s : Num} {n : Nat} {f : Nat → Num} (hs : s.type = t)
    (hf : ∀ k < n, Fits (f k).type t) :
    (leftSumAs t s n f).val = s.val + ∑ k ∈ range n, (f k).val := by
  induction n with
  | zero => simp [leftSumAs]
  | succ n ih =>
    have ht : (leftSumAs t s n f).type = t := ty_leftSumAs t s n f hs
    rw [leftSumAs, val_conv, val_add, ih fun k hk => hf k (by omega), sum_range_succ, add_assoc]
    rw [type_add, ht]
    exact (Fits.refl t).common (hf n (by omega))

theorem val_leftDiffAs {t : NumTy} {s : Num} {n : Nat} {f : Nat → Num} (hs : s.type = t)
    (hf : ∀ k < n, Fits (f k).type t) :
    (leftDiffAs t s n f).val = leftDiff s.val n fun k => (f k).val := by
  induction n with
  | zero => rfl
  | succ n ih =>
    have ht : (leftDiffAs t s n f).type = t := ty_leftDiffAs t s n f hs
    rw [leftDiffAs, leftDiff, val_conv, val_sub, ih fun k hk => hf k (by omega)]
    rw [type_sub, ht]
    exact (Fits.refl t).common (hf n (by omega))

theorem val_solveRowAs {s x : NumTy} {t : Triangle} {d : Diag} {n i : Nat} {term : Nat → Num}
    {b diag : Num} (hi : i < n) (hsx : Fits s x) (hs : d = .explicit → s ≠ .int) (hb : Fits b.type s)
    (ht : ∀ k, k < n → triRegion t d i k → i ≠ k → Fits (term k).type s)
    (hd : d = .explicit → Fits diag.type x) :
    (solveRowAs s x t d n i term b diag).val =
      solveRow t d n i (fun k => (term k).val) b.val diag.val := by
  have hcb : (MixedOps.conv s b).type = s := LawfulMixed.ty_conv (D := Num) s b
  unfold solveRowAs solveRow
  have key : ∀ (m : Nat) (f : Nat → Num), (∀ k < m, Fits (f k).type s) →
      (MixedOps.conv x (if d = .explicit then leftDiffAs s (MixedOps.conv s b) m f / diag
        else leftDiffAs s (MixedOps.conv s b) m f)).val =
      if d = .explicit then leftDiff b.val m (fun k => (f k).val) / diag.val
        else leftDiff b.val m (fun k => (f k).val) := by
    intro m f hf
    have ht : (leftDiffAs s (MixedOps.conv s b) m f).type = s := ty_leftDiffAs s _ m f hcb
    split_ifs with q
    · rw [val_conv, val_div, val_leftDiffAs hcb hf, val_conv _ _ hb]
      · rw [ht]; exact hs q
      · rw [type_div, ht]; exact hsx.common (hd q)
    · rw [val_conv, val_leftDiffAs hcb hf, val_conv _ _ hb]
      rw [ht]; exact hsx
  cases t with
  | lower => exact key i term fun k hk => ht k (by omega) ⟨by show k ≤ i; omega, by omega⟩ (by omega)
  | upper =>
    exact key (n - 1 - i) _ fun k hk => ht (i + 1 + k) (by omega)
      ⟨by show i ≤ i + 1 + k; omega, by omega⟩ (by omega)

/-- A substitution in types that fit solves the system. -/
theorem solveRowAs_solves {s x tA : NumTy} {t : Triangle} {d : Diag} {n : Nat}
    {a : Nat → Nat → Num} {b v : Nat → Num} (hsx : Fits s x) (hs : d = .explicit → s ≠ .int)
    (hAs : Fits tA s) (hxs : Fits x s)
    (ha : ∀ i j, i < n → j < n → triRegion t d i j → (a i j).type = tA)
    (hb : ∀ i, i < n → Fits (b i).type s) (hnz : d = .explicit → ∀ i, i < n → (a i i).val ≠ 0)
    (hv : ∀ i, i < n → v i = solveRowAs s x t d n i (fun k => a i k * v k) (b i) (a i i))
    {i : Nat} (hi : i < n) :
    mulVec n (triOf t d fun i j => (a i j).val) (fun k => (v k).val) i = (b i).val := by
  have hty : ∀ k, k < n → (v k).type = x := fun k hk => by
    rw [hv k hk]; exact ty_solveRowAs (D := Num) ..
  refine (subRow_iff (divide := (· / ·)) (g := fun i => (b i).val) (fun q i hi s => ?_) hi).1 ?_
  · have := hnz q i hi
    exact ⟨mul_div_cancel₀ _ this, mul_div_cancel_left₀ _ this⟩
  · rw [subRow_eq]
    conv_lhs => rw [hv i hi]
    rw [val_solveRowAs hi hsx hs (hb i hi)]
    · simp only [val_mul]
    · intro k hk hr _
      rw [type_mul, ha i k hi hk hr, hty k hk]
      exact hAs.common hxs
    · intro q
      subst q
      have hr : triRegion t .explicit i i := ⟨by cases t <;> exact le_rfl, fun q => by cases q⟩
      rw [ha i i hi hi hr]
      have : Fits tA x := by
        revert hAs hxs hsx; unfold Fits; cases tA <;> cases s <;> cases x <;> decide
      exact this

/-- The same for a substitution from the right, with the factors of each product exchanged. -/
theorem solveRowAs_solves_right {s x tA : NumTy} {t : Triangle} {d : Diag} {n : Nat}
    {a : Nat → Nat → Num} {b v : Nat → Num} (hsx : Fits s x) (hs : d = .explicit → s ≠ .int)
    (hAs : Fits tA s) (hxs : Fits x s)
    (ha : ∀ i j, i < n → j < n → triRegion t d i j → (a i j).type = tA)
    (hb : ∀ i, i < n → Fits (b i).type s) (hnz : d = .explicit → ∀ i, i < n → (a i i).val ≠ 0)
    (hv : ∀ i, i < n → v i = solveRowAs s x t.other d n i (fun k => v k * a k i) (b i) (a i i))
    {i : Nat} (hi : i < n) :
    mulVec n (triOf t.other d fun i j => (a j i).val) (fun k => (v k).val) i = (b i).val := by
  have comm : ∀ p q : Num, p * q = q * p := fun p q => by
    show op _ _ _ p q = op _ _ _ q p
    cases p <;> cases q <;> simp [op, val, mul_comm]
  refine solveRowAs_solves (a := fun i j => a j i) hsx hs hAs hxs (fun i j hi hj hr => ha j i hj hi ?_)
    hb hnz (fun i hi => ?_) hi
  · revert hr; cases t <;> exact fun hr => ⟨hr.1, fun q e => hr.2 q e.symm⟩
  · rw [hv i hi]; congr 1; funext k; exact comm ..

end Num

namespace MixFlt

theorem addError_nonneg (p q : ℕ) : 0 ≤ addError p q := by
  unfold addError
  split
  · positivity
  · have a : (0 : ℝ) ≤ (2 : ℝ)⁻¹ ^ p := by positivity
    have b : (0 : ℝ) ≤ (2 : ℝ)⁻¹ ^ q := by positivity
    nlinarith

theorem conv_add_error (q : ℕ) (a b : MixFlt) (ha : a.prec = q) :
    ∃ δ : ℝ, |δ| ≤ addError b.prec q ∧
      (MixedOps.conv q (a + b)).val = (a.val + b.val) * (1 + δ) := by
  show ∃ δ : ℝ, _ ∧ (cast q (a + b)).val = _
  rw [add_def, ha]
  unfold cast addError
  by_cases hp : b.prec ≤ q
  · rw [max_eq_left hp, if_pos le_rfl, if_pos hp]
    obtain ⟨δ, h1, h2⟩ := roundTo_error q (a.val + b.val)
    exact ⟨δ, h1, h2⟩
  · rw [max_eq_right (by omega), if_neg hp, if_neg hp]
    obtain ⟨δ, h1, h2⟩ := roundTo_error b.prec (a.val + b.val)
    obtain ⟨η, h3, h4⟩ := roundTo_error q (roundTo b.prec (a.val + b.val))
    refine ⟨δ + η + δ * η, ?_, ?_⟩
    · rw [Real.norm_eq_abs] at h1 h3
      have h5 : |δ * η| ≤ (2 : ℝ)⁻¹ ^ b.prec * (2 : ℝ)⁻¹ ^ q := by
        rw [abs_mul]; exact mul_le_mul h1 h3 (abs_nonneg _) (by positivity)
      have h6 := abs_add_le (δ + η) (δ * η)
      have h7 := abs_add_le δ η
      nlinarith
    · show roundTo q (roundTo b.prec (a.val + b.val)) = _
      rw [h4, h2]; ring

/-- A sum in a variable of `q` digits of `n` terms of `p` digits that have a relative error. -/
theorem leftSumAs_error {p q n : ℕ} {s : MixFlt} {f : ℕ → MixFlt} {e W : ℕ → ℝ} {u : ℝ} (hu : 0 ≤ u)
    (hs : s.prec = q) (hp : ∀ k < n, (f k).prec = p) (he : ∀ k < n, |e k| ≤ W k)
    (hf : ∀ k < n, |(f k).val - e k| ≤ u * W k) :
    |(leftSumAs q s n f).val - (s.val + ∑ k ∈ range n, e k)| ≤
      ((1 + u) * (1 + addError p q) ^ n - 1) * (|s.val| + ∑ k ∈ range n, W k) ∧
    |s.val + ∑ k ∈ range n, e k| ≤ |s.val| + ∑ k ∈ range n, W k := by
  induction n with
  | zero => simp [leftSumAs]; positivity
  | succ n ih =>
    obtain ⟨h1, h2⟩ := ih (fun k hk => hp k (by omega)) (fun k hk => he k (by omega))
      (fun k hk => hf k (by omega))
    have ht : (leftSumAs q s n f).prec = q := ty_leftSumAs q s n f hs
    obtain ⟨δ, hδ, hv⟩ := conv_add_error q (leftSumAs q s n f) (f n) ht
    rw [hp n (by omega)] at hδ
    have hen := he n (by omega)
    have hfn := hf n (by omega)
    have hw := addError_nonneg p q
    set w := addError p q
    have hW : 0 ≤ W n := (abs_nonneg _).trans hen
    have hM : 0 ≤ |s.val| + ∑ k ∈ range n, W k := (abs_nonneg _).trans h2
    have hpow : (1 : ℝ) ≤ (1 + w) ^ n := one_le_pow₀ (by linarith)
    rw [leftSumAs, hv, sum_range_succ, sum_range_succ]
    set r := (leftSumAs q s n f).val
    set E := s.val + ∑ k ∈ range n, e k with hE
    set M := |s.val| + ∑ k ∈ range n, W k with hMd
    set A := (1 + u) * (1 + w) ^ n with hA
    have hA1 : 1 + u ≤ A := by rw [hA]; nlinarith
    have b1 : |(r + (f n).val) - (E + e n)| ≤ (A - 1) * (M + W n) := by
      have := abs_add_le (r - E) ((f n).val - e n)
      rw [show r - E + ((f n).val - e n) = r + (f n).val - (E + e n) by ring] at this
      nlinarith
    have b2 : |E + e n| ≤ M + W n := (abs_add_le _ _).trans (add_le_add h2 hen)
    refine ⟨?_, by rw [← add_assoc, ← add_assoc]; exact b2⟩
    rw [← add_assoc, ← add_assoc, ← hE, ← hMd,
      show (r + (f n).val) * (1 + δ) - (E + e n) =
        ((r + (f n).val) - (E + e n)) * (1 + δ) + (E + e n) * δ by ring]
    refine (abs_add_le _ _).trans ?_
    rw [abs_mul, abs_mul]
    have b3 : |1 + δ| ≤ 1 + w := (abs_add_le _ _).trans (by rw [abs_one]; linarith)
    have b4 : |(r + (f n).val) - (E + e n)| * |1 + δ| ≤ ((A - 1) * (M + W n)) * (1 + w) :=
      mul_le_mul b1 b3 (abs_nonneg _) (mul_nonneg (by linarith) (by linarith))
    have b5 : |E + e n| * |δ| ≤ (M + W n) * w :=
      mul_le_mul b2 hδ (abs_nonneg _) (by linarith)
    rw [pow_succ, ← mul_assoc, ← hA]
    nlinarith

theorem mul_error (a b : MixFlt) :
    |(a * b).val - a.val * b.val| ≤ (2 : ℝ)⁻¹ ^ (max a.prec b.prec) * (|a.val| * |b.val|) := by
  obtain ⟨δ, h1, h2⟩ := roundTo_error (max a.prec b.prec) (a.val * b.val)
  rw [mul_def]
  show |roundTo _ _ - _| ≤ _
  rw [h2, show a.val * b.val * (1 + δ) - a.val * b.val = δ * (a.val * b.val) by ring, abs_mul,
    ← abs_mul a.val]
  exact mul_le_mul_of_nonneg_right h1 (abs_nonneg _)

/-- The sum of products that `dot` and the matrix products compute. -/
theorem products_error {p1 p2 q n : ℕ} {s : MixFlt} {f g : ℕ → MixFlt} (hs : s.prec = q)
    (hf : ∀ k < n, (f k).prec = p1) (hg : ∀ k < n, (g k).prec = p2) :
    |(leftSumAs q s n fun k => f k * g k).val - (s.val + ∑ k ∈ range n, (f k).val * (g k).val)| ≤
      ((1 + (2 : ℝ)⁻¹ ^ (max p1 p2)) * (1 + addError (max p1 p2) q) ^ n - 1) *
        (|s.val| + ∑ k ∈ range n, |(f k).val| * |(g k).val|) := by
  refine (leftSumAs_error (by positivity) hs (fun k hk => ?_) (fun k hk => ?_) fun k hk => ?_).1
  · show max _ _ = _
    rw [hf k hk, hg k hk]
  · rw [abs_mul]
  · have := mul_error (f k) (g k)
    rwa [hf k hk, hg k hk] at this

end MixFlt

end StdBLAS

import Verif.Lemmas.GivensFloat
import Verif.Props.Overflow

/-! # `setup_givens_rotation` with infinities and NaN, lemmas -/

namespace StdBLAS
open FP

variable {f : Format} {u η m : ℝ}

theorem ne_zero_true {y : FP f} (hy : y ≠ 0) : FloatOps.ne y 0 = true := by
  change FP.ne y (fin 0) = true
  cases y with
  | fin r => simp only [FP.ne, decide_eq_true_eq]; rintro rfl; exact hy rfl
  | inf s => rfl
  | nan => rfl

theorem fin_ne_zero {x : ℝ} (hx : x ≠ 0) : (fin x : FP f) ≠ 0 := by
  intro q
  have : (fin x : FP f) = fin 0 := q
  injection this with this
  exact hx this

theorem setup_ne {x y : FP f} (hx : x ≠ 0) (hy : y ≠ 0) (fuel : Nat) (k : FP f) :
    setupGivensOf fuel k x y = (givensCore fuel k x y).bind fun p =>
      if FloatOps.lt (FloatOps.abs y) (FloatOps.abs x) && FloatOps.lt p.1 0 then
        some (-p.1, -p.2.1, -p.2.2) else some (p.1, p.2.1, p.2.2) := by
  unfold setupGivensOf
  rw [ne_zero_true hx, ne_zero_true hy]
  rfl

theorem setup_nan (x y : FP f) {o : Option (FP f × FP f × FP f)} (e : o = some (nan, nan, nan)) :
    (o.bind fun p =>
      if FloatOps.lt (FloatOps.abs y) (FloatOps.abs x) && FloatOps.lt p.1 0 then
        some (-p.1, -p.2.1, -p.2.2) else some (p.1, p.2.1, p.2.2)) = some (nan, nan, nan) := by
  have h0 : FloatOps.lt (nan : FP f) 0 = false := rfl
  subst e
  simp only [Option.bind_some, h0, Bool.and_false, Bool.false_eq_true, if_false]

theorem geOf_nan (b : FP f) : geOf nan b = false := by
  unfold geOf
  change (FP.lt b nan || !FP.ne nan b) = false
  rw [lt_nan, nan_ne]
  rfl

theorem nan_geOf (b : FP f) : geOf b nan = false := by
  unfold geOf
  change (FP.lt nan b || !FP.ne b nan) = false
  rw [nan_lt, ne_nan]
  rfl

theorem inf_geOf (x : ℝ) : geOf (inf false : FP f) (fin x) = true := rfl

theorem nan_add (a : FP f) : nan + a = nan := by cases a <;> rfl
theorem add_nan (a : FP f) : a + nan = nan := by cases a <;> rfl
theorem nan_mul (a : FP f) : nan * a = nan := by cases a <;> rfl
theorem mul_nan (a : FP f) : a * nan = nan := by cases a <;> rfl
theorem nan_div (a : FP f) : nan / a = nan := by cases a <;> rfl
theorem div_nan (a : FP f) : a / nan = nan := by cases a <;> rfl

theorem rotation_nan_left (y : FP f) : rotationOf nan y = (nan, nan, nan) := by
  unfold rotationOf
  rw [nan_mul, nan_add]
  change (nan / nan, y / nan, nan) = _
  rw [nan_div, div_nan]

theorem rotation_nan_right (x : FP f) : rotationOf x nan = (nan, nan, nan) := by
  unfold rotationOf
  rw [nan_mul, add_nan]
  change (x / nan, nan / nan, nan) = _
  rw [nan_div, div_nan]

theorem back_nan (k : FP f) (n : Nat) : rescaleBackOf k n nan = nan := by
  induction n with
  | zero => rfl
  | succ n ih => rw [rescaleBackOf, nan_mul, ih]

theorem max_rep {a b : ℝ} (ha : f.Rep a) (hb : f.Rep b) : f.Rep (max a b) := by
  rcases max_choice a b with e | e <;> rw [e] <;> assumption

namespace Format.Scaled
variable (h : f.Scaled u η m)
include h

theorem abs_rep {a : ℝ} (ha : f.Rep a) : f.Rep |a| := by
  refine ⟨?_, by rw [abs_abs]; exact ha.2⟩
  rcases abs_choice a with e | e <;> rw [e]
  · exact ha.1
  · exact h.neg a ha.1

theorem inf_mul (b : Bool) : (inf b * fin m : FP f) = inf b := by
  change FP.mul (inf b) (fin m) = _
  unfold FP.mul
  simp only [h.m_pos.ne', if_false, not_lt.2 h.m_pos.le, decide_false, Bool.xor_false]

theorem mul_ne_nan {x : FP f} (hx : x ≠ nan) : x * fin m ≠ nan := by
  cases x with
  | fin a =>
    change ofReal f (a * m) ≠ nan
    unfold ofReal
    split <;> rintro ⟨⟩
  | inf b => rw [h.inf_mul]; exact hx
  | nan => exact absurd rfl hx

theorem loop_left (fuel : Nat) (b : Bool) : ∀ (y : FP f) (n : Nat),
    rescaleOf (fun s => geOf s (fin (1 / m) : FP f)) (fin m) fuel (inf b) y n = none := by
  induction fuel with
  | zero => intro y n; rfl
  | succ k ih =>
    intro y n
    rw [rescaleOf]
    have s : stdMax (FloatOps.abs (inf b : FP f)) (FloatOps.abs (y * fin m)) = inf false := by
      unfold stdMax
      change (if FP.lt (inf false) _ = true then _ else _) = _
      have : FP.lt (inf false) (FloatOps.abs (y * fin m)) = false := by
        cases (FloatOps.abs (y * fin m) : FP f) <;> rfl
      rw [this]
      rfl
    simp only [h.inf_mul, s, inf_geOf, if_true]
    exact ih _ _

theorem loop_right (fuel : Nat) (b : Bool) : ∀ (x : FP f) (_ : x ≠ nan) (n : Nat),
    rescaleOf (fun s => geOf s (fin (1 / m) : FP f)) (fin m) fuel x (inf b) n = none := by
  induction fuel with
  | zero => intro x _ n; rfl
  | succ k ih =>
    intro x hx n
    rw [rescaleOf]
    have s : stdMax (FloatOps.abs (x * fin m)) (FloatOps.abs (inf b : FP f)) = inf false := by
      have hn := abs_ne_nan (h.mul_ne_nan hx)
      change stdMax (FP.abs (x * fin m)) (inf false) = _
      revert hn
      generalize FP.abs (x * fin m) = z
      intro hn
      cases z with
      | fin a => rfl
      | inf t => cases t <;> rfl
      | nan => exact absurd rfl hn
    simp only [h.inf_mul, s, inf_geOf, if_true]
    exact ih _ (h.mul_ne_nan hx) _

theorem loop_cplx (fuel : Nat) : ∀ (x y : FP f × FP f) (n : Nat),
    rescaleCplxOf (fun s => geOf s (fin (1 / m) : FP f)) (fin m) fuel x y (inf false) n = none := by
  induction fuel with
  | zero => intro x y n; rfl
  | succ k ih =>
    intro x y n
    rw [rescaleCplxOf]
    simp only [h.inf_mul, inf_geOf, if_true]
    exact ih _ _ _

/-- Two products with `safmn2` suffice. -/
theorem two_down {a : ℝ} (ha : f.Rep a) : |f.rnd (f.rnd (a * m) * m)| < 1 / m := by
  by_contra hn
  have hm := h.m_pos
  have hη := h.eta_nonneg
  have d1 := h.down a ha.1
  have d2 := h.down _ (h.down_rep ha).1
  have d3 : |f.rnd (a * m) * m - a * m ^ 2| ≤ η := by
    have e : f.rnd (a * m) * m - a * m ^ 2 = (f.rnd (a * m) - a * m) * m := by ring
    rw [e, abs_mul, abs_of_pos hm]
    have := h.m_le
    nlinarith [abs_nonneg (f.rnd (a * m) - a * m)]
  have h2 := abs_sub_le (f.rnd (f.rnd (a * m) * m)) (f.rnd (a * m) * m) (a * m ^ 2)
  have h3 := abs_sub_abs_le_abs_sub (f.rnd (f.rnd (a * m) * m)) (a * m ^ 2)
  rw [abs_mul a, abs_of_pos (show 0 < m ^ 2 by positivity)] at h3
  have h4 : |a| * m ^ 2 ≤ f.big * m ^ 2 := mul_le_mul_of_nonneg_right ha.2 (by positivity)
  have h5 : f.big * m ^ 2 ≤ (1 / 2) * (1 / m) := by
    rw [mul_one_div, le_div_iff₀ hm]
    have := h.big_le
    nlinarith
  have h6 := h.inv_ge
  have h7 := h.eta_le_u
  have h8 := h.u_le
  linarith

theorem rescale_down_nan {x : ℝ} (hx : f.Rep x) (_ : 1 / m ≤ |x|) (fuel : Nat) (hf : 2 ≤ fuel) :
    ∃ a k, rescaleOf (fun s => geOf s (fin (1 / m) : FP f)) (fin m) fuel (fin x) nan 0 =
      some (a, nan, k) := by
  obtain ⟨n, rfl⟩ := Nat.exists_eq_add_of_le' hf
  have s : ∀ a : ℝ, stdMax (FloatOps.abs (fin a : FP f)) (FloatOps.abs nan) = fin |a| := fun _ => rfl
  rw [rescaleOf]
  simp only [h.mul_down hx.2, nan_mul, s, geOf_fin, decide_eq_true_eq]
  split_ifs with h1
  · rw [rescaleOf]
    simp only [h.mul_down (h.down_rep hx).2, nan_mul, s, geOf_fin, decide_eq_true_eq,
      if_neg (not_le.2 (h.two_down hx))]
    exact ⟨_, _, rfl⟩
  · exact ⟨_, _, rfl⟩

/-- Two products with `1 / safmn2` suffice. -/
theorem two_up {a : ℝ} (ha : f.Rep a) (h0 : a ≠ 0) : m < |a / m / m| := by
  have hm := h.m_pos
  rw [abs_div, abs_div, abs_of_pos hm, lt_div_iff₀ hm, lt_div_iff₀ hm]
  have := h.small a ha.1 h0
  nlinarith

theorem rescale_up_nan {x : ℝ} (hx : f.Rep x) (hx0 : x ≠ 0) (hl : |x| ≤ m) (fuel : Nat)
    (hf : 2 ≤ fuel) :
    ∃ a k, rescaleOf (fun s => geOf (fin m : FP f) s) (fin (1 / m)) fuel (fin x) nan 0 =
      some (a, nan, k) := by
  obtain ⟨n, rfl⟩ := Nat.exists_eq_add_of_le' hf
  have hm := h.m_pos
  have hb := f.one_le_big
  have le1 : ∀ a : ℝ, |a| ≤ m → |a / m| ≤ 1 := by
    intro a ha
    rwa [abs_div, abs_of_pos hm, div_le_one hm]
  have s : ∀ a : ℝ, stdMax (FloatOps.abs (fin a : FP f)) (FloatOps.abs nan) = fin |a| := fun _ => rfl
  rw [rescaleOf]
  simp only [h.mul_up hx.1 ((le1 x hl).trans hb), nan_mul, s, geOf_fin, decide_eq_true_eq]
  split_ifs with h1
  · rw [rescaleOf]
    simp only [h.mul_up (h.up x hx.1) ((le1 _ h1).trans hb), nan_mul, s, geOf_fin, decide_eq_true_eq,
      if_neg (not_le.2 (h.two_up hx hx0))]
    exact ⟨_, _, rfl⟩
  · exact ⟨_, _, rfl⟩

theorem cplx_down {s : ℝ} (hs : f.Rep s) (fuel : Nat) (hf : 2 ≤ fuel) (x y : FP f × FP f)
    (_ : 1 / m ≤ s) :
    ∃ fs gs k, rescaleCplxOf (fun s => geOf s (fin (1 / m) : FP f)) (fin m) fuel x y (fin s) 0 =
      some (fs, gs, k) := by
  obtain ⟨n, rfl⟩ := Nat.exists_eq_add_of_le' hf
  rw [rescaleCplxOf]
  simp only [h.mul_down hs.2, geOf_fin, decide_eq_true_eq]
  split_ifs with h2
  · rw [rescaleCplxOf]
    have := lt_of_le_of_lt (le_abs_self _) (h.two_down hs)
    simp only [h.mul_down (h.down_rep hs).2, geOf_fin, decide_eq_true_eq, if_neg (not_le.2 this)]
    exact ⟨_, _, _, rfl⟩
  · exact ⟨_, _, _, rfl⟩

theorem cplx_up {s : ℝ} (hs : f.Rep s) (h0 : 0 < s) (fuel : Nat) (hf : 2 ≤ fuel) (x y : FP f × FP f)
    (h1 : s ≤ m) :
    ∃ fs gs k, rescaleCplxOf (fun s => geOf (fin m : FP f) s) (fin (1 / m)) fuel x y (fin s) 0 =
      some (fs, gs, k) := by
  obtain ⟨n, rfl⟩ := Nat.exists_eq_add_of_le' hf
  have hm := h.m_pos
  have hb := f.one_le_big
  have le1 : ∀ a : ℝ, 0 < a → a ≤ m → |a / m| ≤ 1 := by
    intro a ha0 ha
    rwa [abs_div, abs_of_pos hm, abs_of_pos ha0, div_le_one hm]
  rw [rescaleCplxOf]
  simp only [h.mul_up hs.1 ((le1 s h0 h1).trans hb), geOf_fin, decide_eq_true_eq]
  split_ifs with h2
  · rw [rescaleCplxOf]
    have hp : 0 < s / m := div_pos h0 hm
    have hp2 : 0 < s / m / m := div_pos hp hm
    have := h.two_up hs h0.ne'
    rw [abs_of_pos hp2] at this
    simp only [h.mul_up (h.up s hs.1) ((le1 _ hp h2).trans hb), geOf_fin, decide_eq_true_eq,
      if_neg (not_le.2 this)]
    exact ⟨_, _, _, rfl⟩
  · exact ⟨_, _, _, rfl⟩

end Format.Scaled
end StdBLAS

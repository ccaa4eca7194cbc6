import Mathlib.Tactic.NormNum
import Mathlib.Tactic.GCongr
import Mathlib.Tactic.LinearCombination
import Verif.Spec.Scaling
import Verif.Lemmas.Ieee
import Verif.Model.GivensFloat

/-! # Lemmas about `setup_givens_rotation` in floating-point arithmetic -/

namespace StdBLAS
open FP

theorem squares_err {u η P A B a2 b2 : ℝ} (hP : P = a2 + b2) (hη : η ≤ u * P)
    (hA : |A - a2| ≤ u * a2 + η) (hB : |B - b2| ≤ u * b2 + η) : |A + B - P| ≤ 3 * u * P := by
  subst hP
  rw [abs_le] at *
  constructor <;> linarith [hA.1, hA.2, hB.1, hB.2]

theorem sum_err {u η P T S : ℝ} (hu : 0 ≤ u) (hu' : u ≤ 1 / 64) (hP : 0 ≤ P) (hη : η ≤ u * P)
    (hT : |T - P| ≤ 3 * u * P) (hS : |S - T| ≤ u * T + η) : |S - P| ≤ 6 * u * P := by
  rw [abs_le] at *
  have h1 : u * T ≤ u * (P + 3 * u * P) := mul_le_mul_of_nonneg_left (by linarith [hT.2]) hu
  have h2 : u * P * (64 * u) ≤ u * P * 1 :=
    mul_le_mul_of_nonneg_left (by linarith) (mul_nonneg hu hP)
  have h3 : 0 ≤ u * P := mul_nonneg hu hP
  constructor <;> linarith [hT.1, hT.2, hS.1, hS.2]

theorem sqrt_err {u P S : ℝ} (hu : 0 ≤ u) (hu' : u ≤ 1 / 64) (hP : 0 ≤ P)
    (hS : |S - P| ≤ 6 * u * P) : |√S - √P| ≤ 4 * u * √P := by
  rw [abs_le] at hS ⊢
  have hρ2 : √P ^ 2 = P := Real.sq_sqrt hP
  constructor
  · have : (1 - 4 * u) * √P ≤ √S := by
      apply Real.le_sqrt_of_sq_le
      rw [mul_pow, hρ2]
      have : (1 - 4 * u) ^ 2 ≤ 1 - 6 * u := by nlinarith
      have := mul_le_mul_of_nonneg_right this hP
      linarith [hS.1]
    linarith
  · have : √S ≤ (1 + 4 * u) * √P := by
      rw [Real.sqrt_le_left (by positivity), mul_pow, hρ2]
      have : 1 + 6 * u ≤ (1 + 4 * u) ^ 2 := by nlinarith
      have := mul_le_mul_of_nonneg_right this hP
      linarith [hS.2]
    linarith

theorem root_err {u η ρ q r : ℝ} (hu : 0 ≤ u) (hu' : u ≤ 1 / 64) (hρ : 0 ≤ ρ) (hη : η ≤ u * ρ / 4)
    (hq : |q - ρ| ≤ 4 * u * ρ) (hr : |r - q| ≤ u * q + η) : |r - ρ| ≤ 6 * u * ρ := by
  rw [abs_le] at *
  have h1 : u * q ≤ u * (ρ + 4 * u * ρ) := mul_le_mul_of_nonneg_left (by linarith [hq.2]) hu
  have h2 : u * ρ * (64 * u) ≤ u * ρ * 1 :=
    mul_le_mul_of_nonneg_left (by linarith) (mul_nonneg hu hρ)
  have h3 : 0 ≤ u * ρ := mul_nonneg hu hρ
  constructor <;> linarith [hq.1, hq.2, hr.1, hr.2]

theorem quot_err {u ρ r x : ℝ} (hu : 0 ≤ u) (hu' : u ≤ 1 / 64) (hρ : 0 < ρ)
    (hr : |r - ρ| ≤ 6 * u * ρ) : 0 < r ∧ |x / r - x / ρ| ≤ 7 * u * |x / ρ| := by
  have h0 : 0 ≤ u * ρ := mul_nonneg hu hρ.le
  have h1 : (1 - 6 * u) * ρ ≤ r := by linarith [(abs_le.1 hr).1]
  have hrpos : 0 < r := lt_of_lt_of_le (mul_pos (by linarith) hρ) h1
  refine ⟨hrpos, ?_⟩
  have e : x / r - x / ρ = (x / ρ) * ((ρ - r) / r) := by field_simp
  rw [e, abs_mul, mul_comm]
  refine mul_le_mul_of_nonneg_right ?_ (abs_nonneg _)
  rw [abs_div, abs_of_pos hrpos, div_le_iff₀ hrpos, abs_sub_comm]
  refine hr.trans ?_
  have h2 : u * ρ * (64 * u) ≤ u * ρ * 1 := mul_le_mul_of_nonneg_left (by linarith) h0
  have h4 : 7 * u * ((1 - 6 * u) * ρ) ≤ 7 * u * r := mul_le_mul_of_nonneg_left h1 (by linarith)
  linarith

theorem rnd_quot_err {u η x y c : ℝ} (hu : 0 ≤ u) (hu' : u ≤ 1 / 64)
    (hd : |x - y| ≤ 7 * u * |y|) (hc : |c - x| ≤ u * |x| + η) : |c - y| ≤ 9 * u * |y| + η := by
  have h1 := abs_sub_abs_le_abs_sub x y
  have h2 := abs_sub_le c x y
  have h3 : u * |x| ≤ u * (|y| + 7 * u * |y|) := mul_le_mul_of_nonneg_left (by linarith) hu
  have h4 : u * |y| * (64 * u) ≤ u * |y| * 1 :=
    mul_le_mul_of_nonneg_left (by linarith) (mul_nonneg hu (abs_nonneg _))
  have h5 : 0 ≤ u * |y| := mul_nonneg hu (abs_nonneg _)
  linarith

namespace Format.Scaled
variable {f : Format} {u η m : ℝ} (h : f.Scaled u η m)
include h

theorem m_sq_le : m ^ 2 ≤ 1 / 16 := by have := h.m_pos; have := h.m_le; nlinarith

theorem eta_le_u : η ≤ u / 16 := by
  have := h.eta_le; have := h.m_sq_le; have := h.u_nonneg; nlinarith

theorem inv_ge : 4 ≤ 1 / m := by
  rw [le_div_iff₀ h.m_pos]; have := h.m_le; linarith

theorem big_ge_inv : 1 / m ≤ f.big := by
  refine le_trans ?_ h.big_ge
  have := h.m_pos; have := h.m_le
  rw [div_le_div_iff₀ (by positivity) (by positivity)]
  nlinarith

theorem two_le_big : 2 ≤ f.big := by have := h.inv_ge; have := h.big_ge_inv; linarith

theorem abs_rnd_le {x b : ℝ} (hb : f.rnd b = b) (hx : |x| ≤ b) : |f.rnd x| ≤ b := by
  rw [abs_le] at hx ⊢
  have h1 := f.mono hx.1
  have h2 := f.mono hx.2
  rw [hb] at h2
  rw [h.neg b hb] at h1
  exact ⟨h1, h2⟩

theorem le_abs_rnd {x b : ℝ} (hb : f.rnd b = b) (hx : b ≤ |x|) : b ≤ |f.rnd x| := by
  rw [le_abs] at hx ⊢
  rcases hx with hx | hx
  · have := f.mono hx
    rw [hb] at this
    exact Or.inl this
  · have : x ≤ -b := by linarith
    have := f.mono this
    rw [h.neg b hb] at this
    exact Or.inr (by linarith)

theorem ofReal_le {x : ℝ} (hx : |x| ≤ f.big) : ofReal f x = fin (f.rnd x) :=
  ofReal_fin (h.abs_rnd_le f.rnd_big hx)

theorem inv_rep : f.rnd (1 / m) = 1 / m := h.up 1 f.one

/-- The reciprocal of `safmn2` is exact. -/
theorem inv_eq : (1 / fin m : FP f) = fin (1 / m) := by
  have hne := h.m_pos.ne'
  change FP.div (fin 1) (fin m) = _
  unfold FP.div
  simp only [hne, if_false]
  have hpos : 0 ≤ 1 / m := by have := h.inv_ge; linarith
  rw [h.ofReal_le (by rw [abs_of_nonneg hpos]; exact h.big_ge_inv), h.inv_rep]

/-- The formula `sqrt(a*a + b*b)`, `a / r`, `b / r` in the range where it is used: no overflow, and
small relative errors. -/
theorem rotation_mid {a b : ℝ} (ha : |a| ≤ 1 / m) (hb : |b| ≤ 1 / m) (hs : m ≤ max |a| |b|) :
    ∃ c s r, rotationOf (fin a : FP f) (fin b) = (fin c, fin s, fin r) ∧ f.rnd r = r ∧
      |r - √(a ^ 2 + b ^ 2)| ≤ 6 * u * √(a ^ 2 + b ^ 2) ∧
      |c - a / √(a ^ 2 + b ^ 2)| ≤ 9 * u * |a / √(a ^ 2 + b ^ 2)| + η ∧
      |s - b / √(a ^ 2 + b ^ 2)| ≤ 9 * u * |b / √(a ^ 2 + b ^ 2)| + η := by
  have hm := h.m_pos
  have hu := h.u_nonneg
  have hu' := h.u_le
  have hη := h.eta_nonneg
  have hq : (1 / m) ^ 2 = 1 / m ^ 2 := by field_simp
  have hqpos : 0 < 1 / m ^ 2 := by positivity
  have hbig : 4 * (1 / m ^ 2) ≤ f.big := by have := h.big_ge; rw [mul_one_div]; exact this
  have ha2 : a ^ 2 ≤ 1 / m ^ 2 := by
    rw [← hq, ← sq_abs a]; exact pow_le_pow_left₀ (abs_nonneg a) ha 2
  have hb2 : b ^ 2 ≤ 1 / m ^ 2 := by
    rw [← hq, ← sq_abs b]; exact pow_le_pow_left₀ (abs_nonneg b) hb 2
  have hm2 : m ^ 2 ≤ a ^ 2 + b ^ 2 := by
    rcases le_max_iff.1 hs with h1 | h1
    · have := pow_le_pow_left₀ hm.le h1 2
      rw [sq_abs] at this
      nlinarith [sq_nonneg b]
    · have := pow_le_pow_left₀ hm.le h1 2
      rw [sq_abs] at this
      nlinarith [sq_nonneg a]
  set P := a ^ 2 + b ^ 2 with hP
  have hPpos : 0 < P := lt_of_lt_of_le (by positivity) hm2
  have hηP : η ≤ u * P := h.eta_le.trans (mul_le_mul_of_nonneg_left hm2 hu)
  set ρ := √P with hρ
  have hρpos : 0 < ρ := Real.sqrt_pos.2 hPpos
  have hρ2 : ρ ^ 2 = P := Real.sq_sqrt hPpos.le
  have hmρ : m ≤ ρ := Real.le_sqrt_of_sq_le hm2
  have hηρ : η ≤ u * ρ / 4 := by
    have := h.eta_le
    have h1 : m ^ 2 ≤ ρ / 4 := by have := h.m_le; nlinarith
    nlinarith
  -- the squares
  have eA := h.err (a * a)
  have eB := h.err (b * b)
  have aa : a * a = a ^ 2 := by ring
  have bb : b * b = b ^ 2 := by ring
  rw [abs_of_nonneg (mul_self_nonneg a)] at eA
  rw [abs_of_nonneg (mul_self_nonneg b)] at eB
  have nA : 0 ≤ f.rnd (a * a) := rnd_nonneg (mul_self_nonneg a)
  have nB : 0 ≤ f.rnd (b * b) := rnd_nonneg (mul_self_nonneg b)
  have e1 : (fin a * fin a : FP f) = fin (f.rnd (a * a)) :=
    h.ofReal_le (by rw [abs_of_nonneg (mul_self_nonneg a), aa]; linarith)
  have e2 : (fin b * fin b : FP f) = fin (f.rnd (b * b)) :=
    h.ofReal_le (by rw [abs_of_nonneg (mul_self_nonneg b), bb]; linarith)
  have hAB := squares_err (by rw [hP, aa, bb]) hηP eA eB
  have hABb : f.rnd (a * a) + f.rnd (b * b) ≤ f.big := by
    have h1 := (abs_le.1 hAB).2
    have h2 : 3 * u * P ≤ 1 * P := mul_le_mul_of_nonneg_right (by linarith) hPpos.le
    linarith
  have hn : 0 ≤ f.rnd (a * a) + f.rnd (b * b) := by linarith
  have e3 : (fin (f.rnd (a * a)) + fin (f.rnd (b * b)) : FP f) =
      fin (f.rnd (f.rnd (a * a) + f.rnd (b * b))) :=
    h.ofReal_le (by rw [abs_of_nonneg hn]; exact hABb)
  -- their sum
  have eS := h.err (f.rnd (a * a) + f.rnd (b * b))
  rw [abs_of_nonneg hn] at eS
  have nS : 0 ≤ f.rnd (f.rnd (a * a) + f.rnd (b * b)) := rnd_nonneg hn
  have hSb : f.rnd (f.rnd (a * a) + f.rnd (b * b)) ≤ f.big := by
    have := f.mono hABb; rwa [f.rnd_big] at this
  have hS := sum_err hu hu' hPpos.le hηP hAB eS
  clear eA eB hAB eS
  generalize f.rnd (f.rnd (a * a) + f.rnd (b * b)) = S at *
  -- the square root
  have hsq := sqrt_err hu hu' hPpos.le hS
  have hsS : √S ≤ f.big := by
    have h1 : (1 : ℝ) ≤ f.big := f.one_le_big
    rw [Real.sqrt_le_left (by linarith)]
    have := mul_le_mul_of_nonneg_right h1 (show 0 ≤ f.big by linarith)
    rw [sq]
    linarith
  have e4 : FloatOps.sqrt (fin S : FP f) = fin (f.rnd (√S)) := by
    change FP.sqrt (fin S) = _
    unfold FP.sqrt
    simp only [not_lt.2 nS, if_false]
    exact h.ofReal_le (by rw [abs_of_nonneg (Real.sqrt_nonneg _)]; exact hsS)
  have eR := h.err (√S)
  rw [abs_of_nonneg (Real.sqrt_nonneg _)] at eR
  have hRidem : f.rnd (f.rnd (√S)) = f.rnd (√S) := f.idem _
  have hr := root_err hu hu' hρpos.le hηρ hsq eR
  clear eR hsq
  generalize f.rnd (√S) = r at *
  -- the quotients
  have quot : ∀ x : ℝ, |x| ≤ ρ → ∃ c, (fin x / fin r : FP f) = fin c ∧
      |c - x / ρ| ≤ 9 * u * |x / ρ| + η := by
    intro x hx
    obtain ⟨hrpos, hd⟩ := quot_err (x := x) hu hu' hρpos hr
    have hq1 : |x / ρ| ≤ 1 := by rw [abs_div, abs_of_pos hρpos, div_le_one hρpos]; exact hx
    refine ⟨f.rnd (x / r), ?_, rnd_quot_err hu hu' hd (h.err _)⟩
    change FP.div (fin x) (fin r) = _
    unfold FP.div
    simp only [hrpos.ne', if_false]
    refine h.ofReal_le ?_
    have h1 := abs_sub_abs_le_abs_sub (x / r) (x / ρ)
    have h2 := h.two_le_big
    have h3 : 7 * u * |x / ρ| ≤ 7 * u * 1 := mul_le_mul_of_nonneg_left hq1 (by linarith)
    linarith
  have haρ : |a| ≤ ρ := Real.abs_le_sqrt (by rw [hP]; nlinarith [sq_nonneg b])
  have hbρ : |b| ≤ ρ := Real.abs_le_sqrt (by rw [hP]; nlinarith [sq_nonneg a])
  obtain ⟨c, ec, hc⟩ := quot a haρ
  obtain ⟨s, es, hs'⟩ := quot b hbρ
  refine ⟨c, s, r, ?_, hRidem, hr, hc, hs'⟩
  unfold rotationOf
  rw [e1, e2, e3, e4]
  exact Prod.ext ec (Prod.ext es rfl)

omit h in
theorem geOf_fin (a b : ℝ) : geOf (fin a : FP f) (fin b) = decide (b ≤ a) := by
  unfold geOf
  change (FP.lt (fin b) (fin a) || !FP.ne (fin a) (fin b)) = _
  unfold FP.lt FP.ne
  rcases lt_trichotomy a b with h | h | h
  · simp [h.ne, not_lt.2 h.le, not_le.2 h]
  · simp [h]
  · simp [h, h.le]

omit h in
theorem stdMax_fin (a b : ℝ) : stdMax (fin a : FP f) (fin b) = fin (max a b) := by
  unfold stdMax
  change (if FP.lt (fin a) (fin b) = true then _ else _) = _
  unfold FP.lt
  by_cases h : a < b
  · simp [h, max_eq_right h.le]
  · simp [h, max_eq_left (not_lt.1 h)]

omit h in
theorem scale_fin (a b : ℝ) : stdMax (FloatOps.abs (fin a : FP f)) (FloatOps.abs (fin b)) =
    fin (max |a| |b|) := stdMax_fin _ _

/-- A product with `safmn2`. -/
theorem mul_down {x : ℝ} (hx : |x| ≤ f.big) : (fin x * fin m : FP f) = fin (f.rnd (x * m)) := by
  refine h.ofReal_le ?_
  rw [abs_mul, abs_of_pos h.m_pos]
  have := h.m_le
  have := h.m_pos
  have := abs_nonneg x
  nlinarith

theorem down_rep {x : ℝ} (hx : f.Rep x) : f.Rep (f.rnd (x * m)) := by
  refine ⟨f.idem _, h.abs_rnd_le f.rnd_big ?_⟩
  rw [abs_mul, abs_of_pos h.m_pos]
  have := h.m_le
  have := h.m_pos
  have := abs_nonneg x
  have := hx.2
  nlinarith

/-- The loop for large numbers needs at most two iterations. -/
theorem rescale_down {x y : ℝ} (hx : f.Rep x) (hy : f.Rep y) (hl : 1 / m ≤ max |x| |y|)
    (fuel : Nat) (hf : 2 ≤ fuel) :
    ∃ x1 y1 k, rescaleOf (fun s => geOf s (fin (1 / m) : FP f)) (fin m) fuel (fin x) (fin y) 0 =
        some (fin x1, fin y1, k) ∧ max |x1| |y1| ≤ 1 / m ∧ 1 ≤ max |x1| |y1| ∧
      |x1 - x * m ^ k| ≤ 2 * η ∧ |y1 - y * m ^ k| ≤ 2 * η ∧ 1 ≤ k := by
  have hm := h.m_pos
  have hm4 := h.m_le
  have hη := h.eta_nonneg
  have one_le : ∀ a b : ℝ, 1 / m ≤ max |a| |b| → 1 ≤ max |f.rnd (a * m)| |f.rnd (b * m)| := by
    intro a b hab
    rw [le_max_iff] at hab ⊢
    rcases hab with h1 | h1
    · refine Or.inl (h.le_abs_rnd f.one ?_)
      rw [abs_mul, abs_of_pos hm]
      rwa [div_le_iff₀ hm] at h1
    · refine Or.inr (h.le_abs_rnd f.one ?_)
      rw [abs_mul, abs_of_pos hm]
      rwa [div_le_iff₀ hm] at h1
  obtain ⟨n, rfl⟩ := Nat.exists_eq_add_of_le' hf
  rw [rescaleOf]
  simp only [h.mul_down hx.2, h.mul_down hy.2, scale_fin, geOf_fin, decide_eq_true_eq]
  by_cases h1 : 1 / m ≤ max |f.rnd (x * m)| |f.rnd (y * m)|
  · rw [if_pos h1, rescaleOf]
    have rx := h.down_rep hx
    have ry := h.down_rep hy
    simp only [h.mul_down rx.2, h.mul_down ry.2, scale_fin, geOf_fin, decide_eq_true_eq]
    have two : ∀ a : ℝ, f.Rep a → |f.rnd (f.rnd (a * m) * m) - a * m ^ 2| ≤ 2 * η := by
      intro a ha
      have d1 := h.down a ha.1
      have d2 := h.down _ (h.down_rep ha).1
      have d3 : |f.rnd (a * m) * m - a * m ^ 2| ≤ η := by
        have e : f.rnd (a * m) * m - a * m ^ 2 = (f.rnd (a * m) - a * m) * m := by ring
        rw [e, abs_mul, abs_of_pos hm]
        have := abs_nonneg (f.rnd (a * m) - a * m)
        nlinarith
      have := abs_sub_le (f.rnd (f.rnd (a * m) * m)) (f.rnd (a * m) * m) (a * m ^ 2)
      linarith
    have lt : ∀ a : ℝ, f.Rep a → |f.rnd (f.rnd (a * m) * m)| < 1 / m := by
      intro a ha
      have h2 := two a ha
      have h3 := abs_sub_abs_le_abs_sub (f.rnd (f.rnd (a * m) * m)) (a * m ^ 2)
      rw [abs_mul, abs_of_pos (show 0 < m ^ 2 by positivity)] at h3
      have h4 : |a| * m ^ 2 ≤ f.big * m ^ 2 := mul_le_mul_of_nonneg_right ha.2 (by positivity)
      have h5 : f.big * m ^ 2 ≤ (1 / 2) * (1 / m) := by
        rw [mul_one_div, le_div_iff₀ hm]
        have := h.big_le
        nlinarith
      have h6 := h.inv_ge
      have h7 := h.eta_le_u
      have h8 := h.u_le
      linarith
    have h2 : ¬ 1 / m ≤ max |f.rnd (f.rnd (x * m) * m)| |f.rnd (f.rnd (y * m) * m)| :=
      not_le.2 (max_lt (lt x hx) (lt y hy))
    rw [if_neg h2]
    exact ⟨_, _, 2, rfl, (not_le.1 h2).le, one_le _ _ h1, two x hx, two y hy, by omega⟩
  · rw [if_neg h1]
    refine ⟨_, _, 1, rfl, (not_le.1 h1).le, one_le _ _ hl, ?_, ?_, le_rfl⟩
    · rw [pow_one]; have := h.down x hx.1; linarith
    · rw [pow_one]; have := h.down y hy.1; linarith

/-- A product with `1 / safmn2` that does not overflow. -/
theorem mul_up {x : ℝ} (hx : f.rnd x = x) (hb : |x / m| ≤ f.big) :
    (fin x * fin (1 / m) : FP f) = fin (x / m) := by
  have e : x * (1 / m) = x / m := by ring
  change ofReal f (x * (1 / m)) = _
  rw [e, h.ofReal_le hb, h.up x hx]

/-- The loop for small numbers needs at most two iterations. -/
theorem rescale_up {x y : ℝ} (hx : f.Rep x) (hy : f.Rep y) (hx0 : x ≠ 0)
    (hl : max |x| |y| ≤ m) (fuel : Nat) (hf : 2 ≤ fuel) :
    ∃ k, rescaleOf (fun s => geOf (fin m : FP f) s) (fin (1 / m)) fuel (fin x) (fin y) 0 =
        some (fin (x / m ^ k), fin (y / m ^ k), k) ∧
      m ≤ max |x / m ^ k| |y / m ^ k| ∧ max |x / m ^ k| |y / m ^ k| ≤ 1 := by
  have hm := h.m_pos
  have hm4 := h.m_le
  have hb := f.one_le_big
  have le1 : ∀ a : ℝ, |a| ≤ m → |a / m| ≤ 1 := by
    intro a ha
    rwa [abs_div, abs_of_pos hm, div_le_one hm]
  obtain ⟨n, rfl⟩ := Nat.exists_eq_add_of_le' hf
  have x1 := le1 x ((le_max_left _ _).trans hl)
  have y1 := le1 y ((le_max_right _ _).trans hl)
  rw [rescaleOf]
  simp only [h.mul_up hx.1 (x1.trans hb), h.mul_up hy.1 (y1.trans hb), scale_fin, geOf_fin,
    decide_eq_true_eq]
  by_cases h1 : max |x / m| |y / m| ≤ m
  · rw [if_pos h1, rescaleOf]
    have x2 := le1 _ ((le_max_left _ _).trans h1)
    have y2 := le1 _ ((le_max_right _ _).trans h1)
    simp only [h.mul_up (h.up x hx.1) (x2.trans hb), h.mul_up (h.up y hy.1) (y2.trans hb), scale_fin,
      geOf_fin, decide_eq_true_eq]
    have hgt : m < |x / m / m| := by
      rw [abs_div, abs_div, abs_of_pos hm, lt_div_iff₀ hm, lt_div_iff₀ hm]
      have := h.small x hx.1 hx0
      nlinarith
    have h2 : ¬ max |x / m / m| |y / m / m| ≤ m :=
      not_le.2 (lt_of_lt_of_le hgt (le_max_left _ _))
    rw [if_neg h2]
    have e : ∀ a : ℝ, a / m ^ 2 = a / m / m := fun a => by rw [div_div, sq]
    refine ⟨2, ?_, ?_, ?_⟩
    · rw [e, e]
    · rw [e, e]; exact (not_le.1 h2).le
    · rw [e, e]; exact max_le x2 y2
  · rw [if_neg h1]
    refine ⟨1, ?_, ?_, ?_⟩
    · rw [pow_one]
    · rw [pow_one]; exact (not_le.1 h1).le
    · rw [pow_one]; exact max_le x1 y1

theorem back_inf (k : Nat) : rescaleBackOf (fin (1 / m) : FP f) k (inf false) = inf false := by
  have hpos : 0 < 1 / m := by have := h.inv_ge; linarith
  induction k with
  | zero => rfl
  | succ k ih =>
    rw [rescaleBackOf]
    have e : (inf false * fin (1 / m) : FP f) = inf false := by
      change FP.mul (inf false) (fin (1 / m)) = _
      unfold FP.mul
      simp only [hpos.ne', if_false, not_lt.2 hpos.le, decide_false, Bool.xor_false]
    rw [e, ih]

/-- Scaling `r` up again is exact, unless it overflows. -/
theorem back_up (k : Nat) : ∀ {r : ℝ}, f.rnd r = r → 0 ≤ r → r ≤ f.big →
    rescaleBackOf (fin (1 / m) : FP f) k (fin r) =
      if r / m ^ k ≤ f.big then fin (r / m ^ k) else inf false := by
  have hm := h.m_pos
  induction k with
  | zero =>
    intro r _ _ hb
    rw [pow_zero, div_one, if_pos hb]
    rfl
  | succ k ih =>
    intro r hr h0 hb
    have hn : 0 ≤ r / m := div_nonneg h0 hm.le
    have e : r / m ^ (k + 1) = r / m / m ^ k := by rw [div_div, pow_succ']
    rw [rescaleBackOf]
    by_cases hq : r / m ≤ f.big
    · rw [h.mul_up hr (by rwa [abs_of_nonneg hn]), ih (h.up r hr) hn hq, e]
    · have e2 : (fin r * fin (1 / m) : FP f) = inf false := by
        change ofReal f (r * (1 / m)) = _
        unfold ofReal
        rw [mul_one_div, h.up r hr, abs_of_nonneg hn, if_neg hq]
        simp [not_lt.2 hn]
      rw [e2, h.back_inf, if_neg]
      rw [e]
      have h1 : m ^ k ≤ 1 := pow_le_one₀ hm.le (by have := h.m_le; linarith)
      have h2 : r / m ≤ r / m / m ^ k := by
        rw [le_div_iff₀ (pow_pos hm k)]
        nlinarith
      linarith

/-- Scaling `r` down again has a small absolute error. -/
theorem back_down (k : Nat) : ∀ {r : ℝ}, f.Rep r →
    ∃ r', rescaleBackOf (fin m : FP f) k (fin r) = fin r' ∧ |r' - r * m ^ k| ≤ 2 * η := by
  have hm := h.m_pos
  have hη := h.eta_nonneg
  -- the errors of the earlier products become smaller
  have key : ∀ k : Nat, ∀ {r : ℝ}, f.Rep r → ∃ r', rescaleBackOf (fin m : FP f) k (fin r) = fin r' ∧
      |r' - r * m ^ k| ≤ 2 * (1 - m ^ k) * η := by
    intro k
    induction k with
    | zero => intro r hr; exact ⟨r, rfl, by simp⟩
    | succ k ih =>
      intro r hr
      rw [rescaleBackOf, h.mul_down hr.2]
      obtain ⟨r', e, hd⟩ := ih (h.down_rep hr)
      refine ⟨r', e, ?_⟩
      have hk : 0 < m ^ k := pow_pos hm k
      have h1 : |f.rnd (r * m) * m ^ k - r * m ^ (k + 1)| ≤ m ^ k * η := by
        have e : f.rnd (r * m) * m ^ k - r * m ^ (k + 1) = m ^ k * (f.rnd (r * m) - r * m) := by ring
        rw [e, abs_mul, abs_of_pos hk]
        exact mul_le_mul_of_nonneg_left (h.down r hr.1) hk.le
      have h2 := abs_sub_le r' (f.rnd (r * m) * m ^ k) (r * m ^ (k + 1))
      have h3 : m ^ k * η * (4 * m) ≤ m ^ k * η * 1 :=
        mul_le_mul_of_nonneg_left (by linarith [h.m_le]) (mul_nonneg hk.le hη)
      have h4 : 0 ≤ m ^ k * η := mul_nonneg hk.le hη
      have e3 : m ^ (k + 1) = m ^ k * m := pow_succ m k
      rw [e3] at h1 h2 ⊢
      linarith
  intro r hr
  obtain ⟨r', e, hd⟩ := key k hr
  refine ⟨r', e, hd.trans ?_⟩
  have := mul_nonneg (pow_pos hm k).le hη
  linarith

end Format.Scaled

/-- Changing both numbers a little changes the length of the vector a little. -/
theorem length_err {a b c d e : ℝ} (h1 : |a - c| ≤ e) (h2 : |b - d| ≤ e) :
    √(a ^ 2 + b ^ 2) ≤ √(c ^ 2 + d ^ 2) + 2 * e := by
  have he : 0 ≤ e := (abs_nonneg _).trans h1
  have hc : |c| ≤ √(c ^ 2 + d ^ 2) := Real.abs_le_sqrt (by nlinarith [sq_nonneg d])
  have hd : |d| ≤ √(c ^ 2 + d ^ 2) := Real.abs_le_sqrt (by nlinarith [sq_nonneg c])
  have hq : √(c ^ 2 + d ^ 2) ^ 2 = c ^ 2 + d ^ 2 := Real.sq_sqrt (by positivity)
  have ha : |a| ≤ |c| + e := by linarith [abs_sub_abs_le_abs_sub a c]
  have hb : |b| ≤ |d| + e := by linarith [abs_sub_abs_le_abs_sub b d]
  have ha2 : a ^ 2 ≤ (|c| + e) ^ 2 := by
    rw [← sq_abs a]; exact pow_le_pow_left₀ (abs_nonneg a) ha 2
  have hb2 : b ^ 2 ≤ (|d| + e) ^ 2 := by
    rw [← sq_abs b]; exact pow_le_pow_left₀ (abs_nonneg b) hb 2
  rw [Real.sqrt_le_left (by positivity)]
  have h3 := mul_le_mul_of_nonneg_right hc he
  have h4 := mul_le_mul_of_nonneg_right hd he
  have hc2 := sq_abs c
  have hd2 := sq_abs d
  nlinarith [sq_nonneg e]

theorem length_abs_err {a b c d e : ℝ} (h1 : |a - c| ≤ e) (h2 : |b - d| ≤ e) :
    |√(a ^ 2 + b ^ 2) - √(c ^ 2 + d ^ 2)| ≤ 2 * e := by
  rw [abs_le]
  have := length_err h1 h2
  rw [abs_sub_comm] at h1 h2
  have := length_err h1 h2
  constructor <;> linarith

theorem length_scale {a b t : ℝ} (ht : 0 < t) :
    √((a * t) ^ 2 + (b * t) ^ 2) = √(a ^ 2 + b ^ 2) * t := by
  rw [mul_pow, mul_pow, ← add_mul, Real.sqrt_mul' _ (sq_nonneg t), Real.sqrt_sq ht.le]

/-- The ratio `X / p` if `X` and `p` change a little and `p` is at least one. -/
theorem ratio_err {x X p q e : ℝ} (hx : |x - X| ≤ 2 * e) (hp : |p - q| ≤ 4 * e) (h1 : 1 ≤ p)
    (hq : 0 < q) : |x / p - X / q| ≤ 2 * e + 4 * e * |X / q| := by
  have he : 0 ≤ e := by linarith [(abs_nonneg _).trans hx]
  have hp0 : 0 < p := by linarith
  have e1 : x / p - X / q = (x - X) / p + X / q * ((q - p) / p) := by field_simp; ring
  have i1 : |(x - X) / p| ≤ 2 * e := by
    rw [abs_div, abs_of_pos hp0, div_le_iff₀ hp0]
    nlinarith
  have i2 : |(q - p) / p| ≤ 4 * e := by
    rw [abs_div, abs_of_pos hp0, div_le_iff₀ hp0, abs_sub_comm]
    nlinarith
  rw [e1]
  refine (abs_add_le _ _).trans (add_le_add i1 ?_)
  rw [abs_mul, mul_comm]
  exact mul_le_mul_of_nonneg_right i2 (abs_nonneg _)

/-- The error of `c` after scaling down. -/
theorem cosine_err {u η c p q : ℝ} (hu : 0 ≤ u) (hu' : u ≤ 1 / 64) (hη : 0 ≤ η) (hη' : η ≤ u / 16)
    (hc : |c - p| ≤ 9 * u * |p| + η) (hp : |p - q| ≤ 2 * η + 4 * η * |q|) :
    |c - q| ≤ 10 * u * |q| + 4 * η := by
  have h1 := abs_sub_abs_le_abs_sub p q
  have h2 := abs_sub_le c p q
  have h3 : u * |p| ≤ u * (|q| + (2 * η + 4 * η * |q|)) := mul_le_mul_of_nonneg_left (by linarith) hu
  have h4 : η * |q| ≤ u / 16 * |q| := mul_le_mul_of_nonneg_right hη' (abs_nonneg _)
  have h5 : u * η ≤ 1 / 64 * η := mul_le_mul_of_nonneg_right hu' hη
  have h6 : u * (η * |q|) ≤ 1 / 64 * (η * |q|) :=
    mul_le_mul_of_nonneg_right hu' (mul_nonneg hη (abs_nonneg _))
  have h7 := mul_nonneg hu (abs_nonneg q)
  linarith

/-- The error of `r` after scaling down. -/
theorem radius_err {u η r p q : ℝ} (hu : 0 ≤ u) (hu' : u ≤ 1 / 64) (hη : 0 ≤ η) (hη' : η ≤ u / 16)
    (hr : |r - p| ≤ 6 * u * p) (hp : |p - q| ≤ 4 * η) (h1 : 1 ≤ p) : |r - q| ≤ 7 * u * q := by
  have h2 := abs_sub_le r p q
  have h3 := abs_le.1 hp
  have h4 : u * p ≤ u * (q + 4 * η) := mul_le_mul_of_nonneg_left (by linarith [h3.2]) hu
  have h5 : u * η ≤ 1 / 64 * η := mul_le_mul_of_nonneg_right hu' hη
  have h6 : u * (1 - 4 * η) ≤ u * q := mul_le_mul_of_nonneg_left (by linarith [h3.2]) hu
  linarith

namespace Format.Scaled
variable {f : Format} {u η m : ℝ} (h : f.Scaled u η m)
include h

theorem core {x y : ℝ} (hx : f.Rep x) (hy : f.Rep y) (hx0 : x ≠ 0) (fuel : Nat)
    (hf : 2 ≤ fuel) :
    ∃ c s r, givensCore fuel (fin m : FP f) (fin x) (fin y) = some (fin c, fin s, r) ∧
      |c - x / √(x ^ 2 + y ^ 2)| ≤ 10 * u * |x / √(x ^ 2 + y ^ 2)| + 4 * η ∧
      |s - y / √(x ^ 2 + y ^ 2)| ≤ 10 * u * |y / √(x ^ 2 + y ^ 2)| + 4 * η ∧
      r.Near (√(x ^ 2 + y ^ 2)) (7 * u * √(x ^ 2 + y ^ 2) + 2 * η) := by
  have hm := h.m_pos
  have hu := h.u_nonneg
  have hu' := h.u_le
  have hη := h.eta_nonneg
  have hη' := h.eta_le_u
  have hρ : 0 < √(x ^ 2 + y ^ 2) := Real.sqrt_pos.2 (by positivity)
  have huρ : 0 ≤ u * √(x ^ 2 + y ^ 2) := mul_nonneg hu hρ.le
  have hux : 0 ≤ u * |x / √(x ^ 2 + y ^ 2)| := mul_nonneg hu (abs_nonneg _)
  have huy : 0 ≤ u * |y / √(x ^ 2 + y ^ 2)| := mul_nonneg hu (abs_nonneg _)
  unfold givensCore
  simp only [h.inv_eq, scale_fin, geOf_fin, decide_eq_true_eq]
  by_cases hl : 1 / m ≤ max |x| |y|
  · rw [if_pos hl]
    obtain ⟨x1, y1, k, e, hlt, hge, ex, ey, _⟩ := h.rescale_down hx hy hl fuel hf
    rw [e]
    obtain ⟨c, s, r, e2, hr, hr', hc, hs⟩ := h.rotation_mid ((le_max_left _ _).trans hlt)
      ((le_max_right _ _).trans hlt) (by have := h.m_le; linarith)
    have hk : 0 < m ^ k := pow_pos hm k
    have hlen := length_abs_err ex ey
    rw [length_scale hk] at hlen
    have h1 : 1 ≤ √(x1 ^ 2 + y1 ^ 2) := by
      refine hge.trans (max_le ?_ ?_)
      · exact Real.abs_le_sqrt (by nlinarith [sq_nonneg y1])
      · exact Real.abs_le_sqrt (by nlinarith [sq_nonneg x1])
    have hlen' : |√(x1 ^ 2 + y1 ^ 2) - √(x ^ 2 + y ^ 2) * m ^ k| ≤ 4 * η := by linarith
    have hpos : 0 < √(x ^ 2 + y ^ 2) * m ^ k := mul_pos hρ hk
    have cx := cosine_err hu hu' hη hη' hc (ratio_err ex hlen' h1 hpos)
    have cy := cosine_err hu hu' hη hη' hs (ratio_err ey hlen' h1 hpos)
    rw [mul_div_mul_right _ _ hk.ne'] at cx cy
    have hrad := radius_err hu hu' hη hη' hr' hlen' h1
    have hrpos : 0 ≤ r := by
      have := (abs_le.1 hr').1
      nlinarith
    have hx1 : |x1| ≤ 1 / m := (le_max_left _ _).trans hlt
    have hy1 : |y1| ≤ 1 / m := (le_max_right _ _).trans hlt
    have hrb : r ≤ f.big := by
      have h2 : √(x1 ^ 2 + y1 ^ 2) ≤ 2 * (1 / m) := by
        rw [Real.sqrt_le_left (by positivity)]
        rw [← sq_abs x1, ← sq_abs y1]
        have a1 := pow_le_pow_left₀ (abs_nonneg x1) hx1 2
        have a2 := pow_le_pow_left₀ (abs_nonneg y1) hy1 2
        nlinarith [sq_nonneg (1 / m)]
      have h3 := (abs_le.1 hr').2
      have h4 : u * √(x1 ^ 2 + y1 ^ 2) ≤ 1 / 64 * √(x1 ^ 2 + y1 ^ 2) :=
        mul_le_mul_of_nonneg_right hu' (Real.sqrt_nonneg _)
      have h5 := h.big_ge
      have h6 : 4 * (1 / m) ≤ 4 / m ^ 2 := by
        have := h.m_le
        rw [mul_one_div, div_le_div_iff₀ hm (by positivity)]
        nlinarith
      linarith
    refine ⟨c, s, rescaleBackOf (fin (1 / m)) k (fin r), by
      simp only [Option.bind_eq_bind, Option.bind_some, e2], cx, cy, ?_⟩
    rw [h.back_up k hr hrpos hrb]
    have hfin : |r / m ^ k - √(x ^ 2 + y ^ 2)| ≤ 7 * u * √(x ^ 2 + y ^ 2) := by
      have e3 : r / m ^ k - √(x ^ 2 + y ^ 2) = (r - √(x ^ 2 + y ^ 2) * m ^ k) / m ^ k := by
        field_simp
      rw [e3, abs_div, abs_of_pos hk, div_le_iff₀ hk]
      linarith
    split_ifs with hb
    · change |_ - _| ≤ _
      linarith
    · refine ⟨?_, ?_⟩
      · rw [abs_of_pos hρ]
        linarith [(abs_le.1 hfin).2, not_le.1 hb]
      · simp [hρ.le]
  rw [if_neg hl]
  by_cases hs : max |x| |y| ≤ m
  · rw [if_pos hs]
    obtain ⟨k, e, hge, hle⟩ := h.rescale_up hx hy hx0 hs fuel hf
    rw [e]
    have hinv := h.inv_ge
    obtain ⟨c, s, r, e2, hr, hr', hc, hs⟩ := h.rotation_mid
      (((le_max_left _ _).trans hle).trans (by linarith))
      (((le_max_right _ _).trans hle).trans (by linarith)) hge
    have hk : 0 < m ^ k := pow_pos hm k
    have elen : √((x / m ^ k) ^ 2 + (y / m ^ k) ^ 2) = √(x ^ 2 + y ^ 2) * (m ^ k)⁻¹ := by
      rw [div_eq_mul_inv, div_eq_mul_inv, length_scale (inv_pos.2 hk)]
    have eq : ∀ a : ℝ, a / m ^ k / (√(x ^ 2 + y ^ 2) * (m ^ k)⁻¹) = a / √(x ^ 2 + y ^ 2) := by
      intro a; field_simp
    rw [elen, eq] at hc hs
    rw [elen] at hr'
    have hrep : f.Rep r := by
      refine ⟨hr, ?_⟩
      have hx1 : |x / m ^ k| ≤ 1 := (le_max_left _ _).trans hle
      have hy1 : |y / m ^ k| ≤ 1 := (le_max_right _ _).trans hle
      have h2 : √((x / m ^ k) ^ 2 + (y / m ^ k) ^ 2) ≤ 2 := by
        rw [Real.sqrt_le_left (by norm_num)]
        rw [← sq_abs (x / m ^ k), ← sq_abs (y / m ^ k)]
        have a1 := pow_le_pow_left₀ (abs_nonneg (x / m ^ k)) hx1 2
        have a2 := pow_le_pow_left₀ (abs_nonneg (y / m ^ k)) hy1 2
        linarith
      rw [elen] at h2
      have h3 := abs_le.1 hr'
      have h0 : 0 ≤ √(x ^ 2 + y ^ 2) * (m ^ k)⁻¹ := by positivity
      have h4 : u * (√(x ^ 2 + y ^ 2) * (m ^ k)⁻¹) ≤ 1 / 64 * (√(x ^ 2 + y ^ 2) * (m ^ k)⁻¹) :=
        mul_le_mul_of_nonneg_right hu' h0
      have h5 := h.big_ge_inv
      rw [abs_le]
      constructor <;> linarith
    obtain ⟨r', e3, hd⟩ := h.back_down k hrep
    refine ⟨c, s, fin r', by
      simp only [Option.bind_eq_bind, Option.bind_some, e2, e3], by linarith, by linarith, ?_⟩
    change |_ - _| ≤ _
    have h6 : |r * m ^ k - √(x ^ 2 + y ^ 2)| ≤ 6 * u * √(x ^ 2 + y ^ 2) := by
      have e4 : r * m ^ k - √(x ^ 2 + y ^ 2) = (r - √(x ^ 2 + y ^ 2) * (m ^ k)⁻¹) * m ^ k := by
        field_simp
      rw [e4, abs_mul, abs_of_pos hk]
      have := mul_le_mul_of_nonneg_right hr' hk.le
      have e5 : 6 * u * (√(x ^ 2 + y ^ 2) * (m ^ k)⁻¹) * m ^ k = 6 * u * √(x ^ 2 + y ^ 2) := by
        field_simp
      rwa [e5] at this
    have := abs_sub_le r' (r * m ^ k) (√(x ^ 2 + y ^ 2))
    linarith
  · rw [if_neg hs]
    have hlt := (not_le.1 hl).le
    obtain ⟨c, s, r, e2, hr, hr', hc, hs'⟩ := h.rotation_mid ((le_max_left _ _).trans hlt)
      ((le_max_right _ _).trans hlt) (not_le.1 hs).le
    refine ⟨c, s, fin r, by rw [e2], by linarith, by linarith, ?_⟩
    change |_ - _| ≤ _
    linarith

/-- If `x` is larger than `y` in magnitude, the computed cosine has the sign of `x`. -/
theorem cosine_sign {x y c : ℝ} (hxy : |y| < |x|)
    (hc : |c - x / √(x ^ 2 + y ^ 2)| ≤ 10 * u * |x / √(x ^ 2 + y ^ 2)| + 4 * η) :
    c < 0 ↔ x < 0 := by
  have hu := h.u_nonneg
  have hu' := h.u_le
  have hη := h.eta_nonneg
  have hη' := h.eta_le_u
  have hx0 : 0 < |x| := lt_of_le_of_lt (abs_nonneg y) hxy
  have hP : 0 < x ^ 2 + y ^ 2 := by
    have : 0 < x ^ 2 := by rw [← sq_abs]; positivity
    have := sq_nonneg y
    linarith
  have hρ : 0 < √(x ^ 2 + y ^ 2) := Real.sqrt_pos.2 hP
  have hle : √(x ^ 2 + y ^ 2) ≤ 2 * |x| := by
    rw [Real.sqrt_le_left (by positivity), mul_pow, sq_abs, ← sq_abs y]
    have := pow_le_pow_left₀ (abs_nonneg y) hxy.le 2
    rw [sq_abs x] at this
    nlinarith [sq_nonneg x]
  have hhalf : 1 / 2 ≤ |x / √(x ^ 2 + y ^ 2)| := by
    rw [abs_div, abs_of_pos hρ, le_div_iff₀ hρ]
    linarith
  have hone : |x / √(x ^ 2 + y ^ 2)| ≤ 1 := by
    rw [abs_div, abs_of_pos hρ, div_le_one hρ]
    exact Real.abs_le_sqrt (by nlinarith [sq_nonneg y])
  have hb : u * |x / √(x ^ 2 + y ^ 2)| ≤ 1 / 64 * 1 :=
    mul_le_mul hu' hone (abs_nonneg _) (by norm_num)
  have hc' := abs_le.1 (hc.trans (by linarith : _ ≤ (1 / 4 : ℝ)))
  constructor
  · intro h0
    by_contra hn
    have : 0 ≤ x / √(x ^ 2 + y ^ 2) := div_nonneg (not_lt.1 hn) hρ.le
    rw [abs_of_nonneg this] at hhalf
    linarith [hc'.1]
  · intro h0
    have : x / √(x ^ 2 + y ^ 2) < 0 := div_neg_of_neg_of_pos h0 hρ
    rw [abs_of_neg this] at hhalf
    linarith [hc'.2]

end Format.Scaled

/-- The errors `a` and `b` of cosine and sine, multiplied with the exact values. -/
theorem rotation_err {u η a b p q : ℝ} (hu : 0 ≤ u) (hu' : u ≤ 1 / 64) (hη : 0 ≤ η)
    (hη' : η ≤ u / 16) (hpq : p ^ 2 + q ^ 2 = 1) (ha : |a| ≤ 10 * u * |p| + 4 * η)
    (hb : |b| ≤ 10 * u * |q| + 4 * η) :
    |a| * |p| + |b| * |q| ≤ 10 * u + 8 * η ∧ |a| * |q| + |b| * |p| ≤ 10 * u + 8 * η ∧
      a ^ 2 + b ^ 2 ≤ 2 * u + 3 * η := by
  rw [← sq_abs p, ← sq_abs q] at hpq
  rw [← sq_abs a, ← sq_abs b]
  have p0 := abs_nonneg p
  have q0 := abs_nonneg q
  have a0 := abs_nonneg a
  have b0 := abs_nonneg b
  generalize |p| = p at *
  generalize |q| = q at *
  generalize |a| = a at *
  generalize |b| = b at *
  have hp1 : p ≤ 1 := by nlinarith
  have hq1 : q ≤ 1 := by nlinarith
  have e1 : η * p ≤ η := mul_le_of_le_one_right hη hp1
  have e2 : η * q ≤ η := mul_le_of_le_one_right hη hq1
  have eP : u * p ^ 2 + u * q ^ 2 = u := by rw [← mul_add, hpq, mul_one]
  have ePQ : 2 * (u * (p * q)) ≤ u := by
    have : 2 * (p * q) ≤ 1 := by linarith [sq_nonneg (p - q), sub_sq p q]
    linarith [mul_le_mul_of_nonneg_left this hu]
  refine ⟨?_, ?_, ?_⟩
  · linarith [mul_le_mul_of_nonneg_right ha p0, mul_le_mul_of_nonneg_right hb q0]
  · linarith [mul_le_mul_of_nonneg_right ha q0, mul_le_mul_of_nonneg_right hb p0]
  · have i2 := pow_le_pow_left₀ a0 ha 2
    have i3 := pow_le_pow_left₀ b0 hb 2
    have i4 : (10 * u * p + 4 * η) ^ 2 + (10 * u * q + 4 * η) ^ 2 =
        100 * (u * u) + 80 * (u * (η * p)) + 80 * (u * (η * q)) + 32 * (η * η) := by
      linear_combination 100 * u ^ 2 * hpq
    have i5 : u * u ≤ 1 / 64 * u := mul_le_mul_of_nonneg_right hu' hu
    have i6 : u * (η * p) ≤ 1 / 64 * η := mul_le_mul hu' e1 (mul_nonneg hη p0) (by norm_num)
    have i7 : u * (η * q) ≤ 1 / 64 * η := mul_le_mul hu' e2 (mul_nonneg hη q0) (by norm_num)
    have i8 : η * η ≤ 1 / 1024 * η := mul_le_mul_of_nonneg_right (by linarith) hη
    linarith

end StdBLAS

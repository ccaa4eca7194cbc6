import Mathlib.Tactic.Linarith
import Mathlib.Tactic.Positivity
import Mathlib.Algebra.BigOperators.Group.Finset.Basic
import Verif.Spec.Accurate
import Verif.Spec.Order
import Verif.Lemmas.Ieee
import Verif.Lemmas.RoundingSeq
import Verif.Lemmas.FloatReductions

/-! # Error analysis of sums and products in a floating-point format -/

namespace StdBLAS
open Finset

namespace FP
variable {f : Format} {u η : ℝ}

theorem Finite.eq {a : FP f} (h : a.Finite) : a = fin a.val := by
  cases a <;> first | rfl | exact h.elim

theorem finite_add {a b : FP f} (h : (a + b).Finite) : a.Finite ∧ b.Finite := by
  rw [add_def] at h
  cases a with
  | nan => cases b <;> exact h.elim
  | inf s =>
    cases b with
    | nan => exact h.elim
    | fin y => exact h.elim
    | inf t =>
      simp only [add] at h
      split_ifs at h <;> exact h.elim
  | fin x => cases b <;> first | exact ⟨trivial, trivial⟩ | exact h.elim

theorem finite_neg {a : FP f} : (neg a).Finite ↔ a.Finite := by cases a <;> exact Iff.rfl

theorem val_neg (a : FP f) : (neg a).val = -a.val := by cases a <;> simp [neg, val]

theorem finite_sub {a b : FP f} (h : (a - b).Finite) : a.Finite ∧ b.Finite := by
  have := finite_add (show (a + neg b).Finite from h)
  exact ⟨this.1, finite_neg.1 this.2⟩

theorem finite_mul {a b : FP f} (h : (a * b).Finite) : a.Finite ∧ b.Finite := by
  rw [mul_def] at h
  cases a with
  | nan => cases b <;> exact h.elim
  | inf s =>
    cases b with
    | nan => exact h.elim
    | fin y => simp only [mul] at h; split_ifs at h <;> exact h.elim
    | inf t => exact h.elim
  | fin x =>
    cases b with
    | nan => exact h.elim
    | fin y => exact ⟨trivial, trivial⟩
    | inf t => simp only [mul] at h; split_ifs at h <;> exact h.elim

theorem finite_abs {a : FP f} : (abs a).Finite ↔ a.Finite := by cases a <;> exact Iff.rfl

theorem ofReal_valid (x : ℝ) : (ofReal f x).Valid := by
  unfold ofReal
  split_ifs with h
  · exact ⟨f.idem x, h⟩
  · trivial

theorem ofReal_val {x : ℝ} (h : (ofReal f x).Finite) : (ofReal f x).val = f.rnd x := by
  unfold ofReal at *
  split_ifs at * with h'
  · rfl
  · exact h.elim

theorem ofReal_finite {x : ℝ} (h : |f.rnd x| ≤ f.big) : (ofReal f x).Finite := by
  rw [ofReal_fin h]; trivial

theorem add_valid (a b : FP f) : (a + b).Valid := by
  rw [add_def]
  cases a <;> cases b <;> first | exact ofReal_valid _ | trivial | skip
  simp only [add]
  split_ifs <;> trivial

theorem mul_valid (a b : FP f) : (a * b).Valid := by
  rw [mul_def]
  cases a <;> cases b <;> first | exact ofReal_valid _ | trivial | skip
  all_goals
    simp only [mul]
    split_ifs <;> trivial

theorem Valid.neg (E : f.Errors u η) {a : FP f} (h : a.Valid) : (neg a).Valid := by
  cases a with
  | fin x => exact ⟨E.neg x h.1, by rw [abs_neg]; exact h.2⟩
  | inf s => trivial
  | nan => trivial

theorem Valid.abs (E : f.Errors u η) {a : FP f} (h : a.Valid) : (abs a).Valid := by
  cases a with
  | fin x =>
    refine ⟨?_, by rw [abs_abs]; exact h.2⟩
    rcases abs_choice x with e | e <;> rw [e]
    · exact h.1
    · exact E.neg x h.1
  | inf s => trivial
  | nan => trivial

theorem zero_valid : (0 : FP f).Valid := ⟨f.zero, by rw [abs_zero]; linarith [f.one_le_big]⟩

/-- `Accurate`, with what is needed to go on computing. -/
structure Acc (u : ℝ) (m : ℕ) (z : ℝ) (I : Prop) (r : FP f) (e w : ℝ) : Prop
    extends Accurate u m z I r e w where
  valid : r.Valid
  abs_le : |e| ≤ w
  z_nonneg : 0 ≤ z

theorem Acc.congr {m : ℕ} {z z' : ℝ} {I I' : Prop} {r : FP f} {e e' w w' : ℝ}
    (c : Acc u m z I r e w) (hI : I' ↔ I) (he : e' = e) (hw : w' = w) (hz : z' = z) :
    Acc u m z' I' r e' w' := by
  subst he hw hz
  exact ⟨⟨fun h => ⟨hI.2 (c.error h).1, (c.error h).2⟩, fun h => c.finite (hI.1 h)⟩,
    c.valid, c.abs_le, c.z_nonneg⟩

theorem Acc.mono {m n : ℕ} {z : ℝ} {I : Prop} {r : FP f} {e w : ℝ} (hu : 0 ≤ u) (hmn : m ≤ n)
    (c : Acc u m z I r e w) : Acc u n z I r e w := by
  have h1 : (1 + u) ^ m ≤ (1 + u) ^ n := pow_le_pow_right₀ (by linarith) hmn
  have hw : 0 ≤ w := (abs_nonneg e).trans c.abs_le
  have hz := c.z_nonneg
  refine ⟨⟨fun h => ⟨(c.error h).1, (c.error h).2.trans ?_⟩, fun h hb => c.finite h (hb.trans' ?_)⟩,
    c.valid, c.abs_le, hz⟩
  · have := mul_le_mul_of_nonneg_right h1 hw
    have := mul_le_mul_of_nonneg_right h1 hz
    linarith
  · exact mul_le_mul_of_nonneg_right h1 (by linarith)

theorem Acc.mono_z {m : ℕ} {z z' : ℝ} {I : Prop} {r : FP f} {e w : ℝ} (hu : 0 ≤ u) (h : z ≤ z')
    (c : Acc u m z I r e w) : Acc u m z' I r e w := by
  have h1 : 0 ≤ (1 + u) ^ m := by positivity
  have h2 := mul_le_mul_of_nonneg_left h h1
  refine ⟨⟨fun h => ⟨(c.error h).1, (c.error h).2.trans ?_⟩, fun h hb => c.finite h (hb.trans' ?_)⟩,
    c.valid, c.abs_le, c.z_nonneg.trans h⟩
  · linarith
  · linarith [mul_add ((1 + u) ^ m) w z, mul_add ((1 + u) ^ m) w z']

/-- An input. -/
theorem acc_input {a : FP f} (hu : 0 ≤ u) (m : ℕ) (ha : a.Valid) :
    Acc u m 0 a.Finite a a.val |a.val| := by
  have h1 : 1 ≤ (1 + u) ^ m := one_le_pow₀ (by linarith)
  have := mul_nonneg (sub_nonneg.2 h1) (abs_nonneg a.val)
  refine ⟨⟨fun h => ⟨h, ?_⟩, fun h _ => h⟩, ha, le_rfl, le_rfl⟩
  rw [sub_self, abs_zero]
  linarith

theorem add_real {u P z z' w w' x y e e' S : ℝ} (hu : 0 ≤ u)
    (hx : |x - e| ≤ (P - 1) * w + P * z) (hy : |y - e'| ≤ (P - 1) * w' + P * z')
    (he : |e| ≤ w) (he' : |e'| ≤ w') (hS : |S - (x + y)| ≤ u * |x + y|) :
    |x + y| ≤ P * (w + w') + P * (z + z') ∧
    |S - (e + e')| ≤ ((1 + u) * P - 1) * (w + w') + (1 + u) * P * (z + z') := by
  have h1 : |x + y| ≤ P * (w + w') + P * (z + z') := by
    calc |x + y| = |(x - e) + (y - e') + e + e'| := by congr 1; ring
      _ ≤ |(x - e) + (y - e') + e| + |e'| := abs_add_le _ _
      _ ≤ |(x - e) + (y - e')| + |e| + |e'| := by linarith [abs_add_le ((x - e) + (y - e')) e]
      _ ≤ |x - e| + |y - e'| + |e| + |e'| := by linarith [abs_add_le (x - e) (y - e')]
      _ ≤ P * (w + w') + P * (z + z') := by linarith
  refine ⟨h1, ?_⟩
  have h2 := mul_le_mul_of_nonneg_left h1 hu
  calc |S - (e + e')| = |(S - (x + y)) + ((x - e) + (y - e'))| := by congr 1; ring
    _ ≤ |S - (x + y)| + |(x - e) + (y - e')| := abs_add_le _ _
    _ ≤ |S - (x + y)| + (|x - e| + |y - e'|) := by linarith [abs_add_le (x - e) (y - e')]
    _ ≤ _ := by linarith

theorem rnd_le {x S P : ℝ} (hx : |x| ≤ P) (hS : |S - x| ≤ u * |x|) (hu : 0 ≤ u) :
    |S| ≤ (1 + u) * P := by
  have h1 := mul_le_mul_of_nonneg_left hx hu
  have h2 : |S| ≤ |S - x| + |x| := by
    have := abs_add_le (S - x) x
    rwa [sub_add_cancel] at this
  linarith

/-- A sum. -/
theorem Acc.add (E : f.Errors u η) {m : ℕ} {z z' : ℝ} {I I' : Prop} {a b : FP f} {e e' w w' : ℝ}
    (c : Acc u m z I a e w) (c' : Acc u m z' I' b e' w') :
    Acc u (m + 1) (z + z') (I ∧ I') (a + b) (e + e') (w + w') := by
  have hu := E.u_nonneg
  have hw : 0 ≤ w := (abs_nonneg e).trans c.abs_le
  have hw' : 0 ≤ w' := (abs_nonneg e').trans c'.abs_le
  have hz := c.z_nonneg
  have hz' := c'.z_nonneg
  have hP : (1 : ℝ) ≤ (1 + u) ^ m := one_le_pow₀ (by linarith)
  have key : a.Finite → b.Finite →
      |a.val + b.val| ≤ (1 + u) ^ m * (w + w') + (1 + u) ^ m * (z + z') ∧
      |f.rnd (a.val + b.val) - (a.val + b.val)| ≤ u * |a.val + b.val| ∧
      |f.rnd (a.val + b.val) - (e + e')| ≤
        ((1 + u) * (1 + u) ^ m - 1) * (w + w') + (1 + u) * (1 + u) ^ m * (z + z') := by
    intro ha hb
    have va := c.valid
    have vb := c'.valid
    rw [ha.eq] at va
    rw [hb.eq] at vb
    have hS := E.err_add _ _ va.1 vb.1
    have := add_real hu (c.error ha).2 (c'.error hb).2 c.abs_le c'.abs_le hS
    exact ⟨this.1, hS, this.2⟩
  have hab : a.Finite → b.Finite → a + b = ofReal f (a.val + b.val) := by
    intro ha hb
    conv_lhs => rw [ha.eq, hb.eq]
    rfl
  refine ⟨⟨fun h => ?_, fun hI hbig => ?_⟩, add_valid a b, (abs_add_le _ _).trans
    (add_le_add c.abs_le c'.abs_le), by linarith⟩
  · obtain ⟨ha, hb⟩ := finite_add h
    refine ⟨⟨(c.error ha).1, (c'.error hb).1⟩, ?_⟩
    rw [hab ha hb] at h ⊢
    rw [ofReal_val h, pow_succ']
    exact (key ha hb).2.2
  · rw [pow_succ'] at hbig
    have hP0 : 0 ≤ (1 + u) ^ m := by linarith
    have hle : (1 + u) ^ m * (w + w' + (z + z')) ≤ f.big := by
      refine hbig.trans' (mul_le_mul_of_nonneg_right ?_ (by linarith))
      nlinarith
    have ha := c.finite hI.1 (hle.trans' (mul_le_mul_of_nonneg_left (by linarith) hP0))
    have hb := c'.finite hI.2 (hle.trans' (mul_le_mul_of_nonneg_left (by linarith) hP0))
    rw [hab ha hb]
    obtain ⟨h1, h2, -⟩ := key ha hb
    refine ofReal_finite ((rnd_le h1 h2 hu).trans (hbig.trans' (le_of_eq ?_)))
    ring

/-- The negative of a number. -/
theorem Acc.neg (E : f.Errors u η) {m : ℕ} {z : ℝ} {I : Prop} {a : FP f} {e w : ℝ}
    (c : Acc u m z I a e w) : Acc u m z I (neg a) (-e) w :=
  ⟨⟨fun h => by
      have := c.error (finite_neg.1 h)
      refine ⟨this.1, ?_⟩
      rw [val_neg, show -a.val - -e = -(a.val - e) by ring, abs_neg]
      exact this.2,
    fun hI hb => finite_neg.2 (c.finite hI hb)⟩, c.valid.neg E, by rw [abs_neg]; exact c.abs_le,
    c.z_nonneg⟩

/-- A difference. -/
theorem Acc.sub (E : f.Errors u η) {m : ℕ} {z z' : ℝ} {I I' : Prop} {a b : FP f} {e e' w w' : ℝ}
    (c : Acc u m z I a e w) (c' : Acc u m z' I' b e' w') :
    Acc u (m + 1) (z + z') (I ∧ I') (a - b) (e - e') (w + w') := by
  have := c.add E (c'.neg E)
  rw [← sub_eq_add_neg] at this
  exact this

theorem mul_real {u η P z w x y e S : ℝ} (hu : 0 ≤ u) (hη : 0 ≤ η) (hP : 1 ≤ P)
    (hx : |x - e| ≤ (P - 1) * w + P * z)
    (he : |e| ≤ w) (hS : |S - x * y| ≤ u * |x * y| + η) :
    |S| ≤ (1 + u) * P * (w * |y| + (z * |y| + η)) ∧
    |S - e * y| ≤ ((1 + u) * P - 1) * (w * |y|) + (1 + u) * P * (z * |y| + η) := by
  have hx' : |x| ≤ P * w + P * z := by
    have := abs_add_le (x - e) e
    rw [sub_add_cancel] at this
    linarith
  have h1 : |x * y| ≤ P * (w * |y|) + P * (z * |y|) := by
    rw [abs_mul]
    have := mul_le_mul_of_nonneg_right hx' (abs_nonneg y)
    linarith
  have h2 : |(x - e) * y| ≤ (P - 1) * (w * |y|) + P * (z * |y|) := by
    rw [abs_mul]
    have := mul_le_mul_of_nonneg_right hx (abs_nonneg y)
    linarith
  have h3 := mul_le_mul_of_nonneg_left h1 hu
  have h4 : η ≤ (1 + u) * P * η := by
    have : 1 ≤ (1 + u) * P := by nlinarith
    nlinarith
  constructor
  · have := abs_add_le (S - x * y) (x * y)
    rw [sub_add_cancel] at this
    linarith
  · calc |S - e * y| = |(S - x * y) + (x - e) * y| := by congr 1; ring
      _ ≤ |S - x * y| + |(x - e) * y| := abs_add_le _ _
      _ ≤ _ := by linarith

/-- A computed number times an input.  The computed number has to be finite by itself: a small input
can hide that it is too large. -/
theorem Acc.mul_input (E : f.Errors u η) {m : ℕ} {z : ℝ} {I : Prop} {a b : FP f} {e w : ℝ}
    (c : Acc u m z I a e w) :
    Acc u (m + 1) (z * |b.val| + η) (a.Finite ∧ b.Finite) (a * b) (e * b.val) (w * |b.val|) := by
  have hu := E.u_nonneg
  have hη := E.eta_nonneg
  have hw : 0 ≤ w := (abs_nonneg e).trans c.abs_le
  have hz := c.z_nonneg
  have hy := abs_nonneg b.val
  have hP : (1 : ℝ) ≤ (1 + u) ^ m := one_le_pow₀ (by linarith)
  have key := fun ha => mul_real (y := b.val) hu hη hP (c.error ha).2 c.abs_le (E.err (a.val * b.val))
  have hab : a.Finite → b.Finite → a * b = ofReal f (a.val * b.val) := by
    intro ha hb
    conv_lhs => rw [ha.eq, hb.eq]
    rfl
  refine ⟨⟨fun h => ?_, fun hI hbig => ?_⟩, mul_valid a b, ?_, ?_⟩
  · obtain ⟨ha, hb⟩ := finite_mul h
    refine ⟨⟨ha, hb⟩, ?_⟩
    rw [hab ha hb] at h ⊢
    rw [ofReal_val h, pow_succ']
    exact (key ha).2
  · rw [hab hI.1 hI.2]
    rw [pow_succ'] at hbig
    exact ofReal_finite ((key hI.1).1.trans hbig)
  · rw [abs_mul]; exact mul_le_mul_of_nonneg_right c.abs_le hy
  · have := mul_nonneg hz hy; linarith

/-- A product of inputs. -/
theorem acc_mul (E : f.Errors u η) (a b : FP f) :
    Acc u 1 η (a.Finite ∧ b.Finite) (a * b) (a.val * b.val) (|a.val| * |b.val|) := by
  have hu := E.u_nonneg
  have hη := E.eta_nonneg
  have key := mul_real (y := b.val) (P := 1) (z := 0) (w := |a.val|) hu hη le_rfl
    (show |a.val - a.val| ≤ (1 - 1) * |a.val| + 1 * 0 by simp) le_rfl (E.err (a.val * b.val))
  simp only [mul_one, zero_mul, zero_add] at key
  have hab : a.Finite → b.Finite → a * b = ofReal f (a.val * b.val) := by
    intro ha hb
    conv_lhs => rw [ha.eq, hb.eq]
    rfl
  refine ⟨⟨fun h => ?_, fun hI hbig => ?_⟩, mul_valid a b, (abs_mul _ _).le, hη⟩
  · obtain ⟨ha, hb⟩ := finite_mul h
    refine ⟨⟨ha, hb⟩, ?_⟩
    rw [hab ha hb] at h ⊢
    rw [ofReal_val h, pow_one]
    exact key.2
  · rw [hab hI.1 hI.2]
    rw [pow_one] at hbig
    exact ofReal_finite (key.1.trans hbig)

/-- `Acc` of every term of an index range: the hypothesis on the inputs. -/
theorem Acc.leftSum (E : f.Errors u η) {m n : ℕ} {s : FP f} {t : ℕ → FP f} {S M z : ℝ} {I : Prop}
    {e w y : ℕ → ℝ} {J : ℕ → Prop} (c : Acc u m z I s S M)
    (ct : ∀ k, k < n → Acc u m (y k) (J k) (t k) (e k) (w k)) :
    Acc u (m + n) (z + ∑ k ∈ range n, y k) (I ∧ ∀ k, k < n → J k) (leftSum s n t)
      (S + ∑ k ∈ range n, e k) (M + ∑ k ∈ range n, w k) := by
  induction n with
  | zero => simpa [StdBLAS.leftSum] using c
  | succ n ih =>
    rw [sum_range_succ, sum_range_succ, sum_range_succ, ← add_assoc, ← add_assoc, ← add_assoc,
      ← add_assoc]
    refine ((ih fun k hk => ct k (by omega)).add E
      ((ct n (by omega)).mono E.u_nonneg (by omega))).congr ?_ rfl rfl rfl
    constructor
    · exact fun h => ⟨⟨h.1, fun k hk => h.2 k (by omega)⟩, h.2 n (by omega)⟩
    · refine fun h => ⟨h.1.1, fun k hk => ?_⟩
      rcases Nat.lt_succ_iff_lt_or_eq.1 hk with hk | rfl
      · exact h.1.2 k hk
      · exact h.2

theorem Acc.leftDiff (E : f.Errors u η) {m n : ℕ} {s : FP f} {t : ℕ → FP f} {S M z : ℝ} {I : Prop}
    {e w y : ℕ → ℝ} {J : ℕ → Prop} (c : Acc u m z I s S M)
    (ct : ∀ k, k < n → Acc u m (y k) (J k) (t k) (e k) (w k)) :
    Acc u (m + n) (z + ∑ k ∈ range n, y k) (I ∧ ∀ k, k < n → J k) (leftDiff s n t)
      (S - ∑ k ∈ range n, e k) (M + ∑ k ∈ range n, w k) := by
  induction n with
  | zero => simpa [StdBLAS.leftDiff] using c
  | succ n ih =>
    rw [sum_range_succ, sum_range_succ, sum_range_succ, ← sub_sub, ← add_assoc, ← add_assoc,
      ← add_assoc]
    refine ((ih fun k hk => ct k (by omega)).sub E
      ((ct n (by omega)).mono E.u_nonneg (by omega))).congr ?_ rfl rfl rfl
    constructor
    · exact fun h => ⟨⟨h.1, fun k hk => h.2 k (by omega)⟩, h.2 n (by omega)⟩
    · refine fun h => ⟨h.1.1, fun k hk => ?_⟩
      rcases Nat.lt_succ_iff_lt_or_eq.1 hk with hk | rfl
      · exact h.1.2 k hk
      · exact h.2

/-- A sum of `n` products of inputs. -/
theorem acc_products (E : f.Errors u η) (n : ℕ) (x y : ℕ → FP f) {s : FP f} (hs : s.Valid) :
    Acc u (n + 1) (n * η) (s.Finite ∧ ∀ k, k < n → (x k).Finite ∧ (y k).Finite)
      (StdBLAS.leftSum s n fun k => x k * y k)
      (s.val + ∑ k ∈ range n, (x k).val * (y k).val)
      (|s.val| + ∑ k ∈ range n, |(x k).val| * |(y k).val|) := by
  have := Acc.leftSum E (acc_input E.u_nonneg 1 hs) (n := n) fun k _ => acc_mul E (x k) (y k)
  rw [Nat.add_comm]
  exact this.congr Iff.rfl rfl rfl (by simp)

/-- A sum of `n` products of inputs, from zero. -/
theorem acc_products_zero (E : f.Errors u η) (n : ℕ) (x y : ℕ → FP f) :
    Acc u (n + 1) (n * η) (∀ k, k < n → (x k).Finite ∧ (y k).Finite)
      (StdBLAS.leftSum 0 n fun k => x k * y k)
      (∑ k ∈ range n, (x k).val * (y k).val) (∑ k ∈ range n, |(x k).val| * |(y k).val|) :=
  (acc_products E n x y zero_valid).congr ⟨fun h => ⟨trivial, h⟩, fun h => h.2⟩
    (zero_add _).symm (by
      rw [show (0 : FP f).val = 0 from rfl, abs_zero, zero_add]) rfl

/-! ## Triangular matrices -/

section Tri
variable {t : Triangle} {d : Diag} {a : ℕ → ℕ → FP f} {x : ℕ → FP f}

/-- A term of a row of a triangular product. -/
theorem acc_term (E : f.Errors u η) {r c : ℕ} (hx : (x c).Valid) (q : t.region r c) {v : FP f}
    (hv : v = if d = .implicitUnit ∧ c = r then x c else a r c * x c) :
    Acc u 1 η ((x c).Finite ∧ (triRegion t d r c → (a r c).Finite)) v
      (triOf t d (fun i j => (a i j).val) r c * (x c).val)
      (|triOf t d (fun i j => (a i j).val) r c| * |(x c).val|) := by
  subst hv
  by_cases e : d = .implicitUnit ∧ c = r
  · obtain ⟨rfl, rfl⟩ := e
    rw [if_pos ⟨rfl, rfl⟩, triOf_diag]
    refine ((acc_input E.u_nonneg 1 hx).mono_z E.u_nonneg E.eta_nonneg).congr ?_
      (one_mul _) (by rw [abs_one, one_mul]) rfl
    exact ⟨fun h => h.1, fun h => ⟨h, fun q' => absurd rfl (q'.2 rfl)⟩⟩
  · rw [if_neg e]
    have hr : triRegion t d r c := ⟨q, fun hd hrc => e ⟨hd, hrc.symm⟩⟩
    have ht : triOf t d (fun i j => (a i j).val) r c = (a r c).val := by
      by_cases hrc : r = c
      · subst hrc
        rw [triOf_diag]
        cases d
        · exact absurd ⟨rfl, rfl⟩ e
        · rfl
      · exact triOf_inside hrc q
    rw [ht]
    exact (acc_mul E (a r c) (x c)).congr ⟨fun h => ⟨h.2 hr, h.1⟩, fun h => ⟨h.2, fun _ => h.1⟩⟩ rfl rfl rfl

/-- The same with the factors in the other order. -/
theorem acc_term_right (E : f.Errors u η) {r c : ℕ} (hx : (x r).Valid) (q : t.region r c) {v : FP f}
    (hv : v = if d = .implicitUnit ∧ r = c then x r else x r * a r c) :
    Acc u 1 η ((x r).Finite ∧ (triRegion t d r c → (a r c).Finite)) v
      ((x r).val * triOf t d (fun i j => (a i j).val) r c)
      (|(x r).val| * |triOf t d (fun i j => (a i j).val) r c|) := by
  subst hv
  by_cases e : d = .implicitUnit ∧ r = c
  · obtain ⟨rfl, rfl⟩ := e
    rw [if_pos ⟨rfl, rfl⟩, triOf_diag]
    refine ((acc_input E.u_nonneg 1 hx).mono_z E.u_nonneg E.eta_nonneg).congr ?_
      (mul_one _) (by rw [abs_one, mul_one]) rfl
    exact ⟨fun h => h.1, fun h => ⟨h, fun q' => absurd rfl (q'.2 rfl)⟩⟩
  · rw [if_neg e]
    have hr : triRegion t d r c := ⟨q, fun hd hrc => e ⟨hd, hrc⟩⟩
    have ht : triOf t d (fun i j => (a i j).val) r c = (a r c).val := by
      by_cases hrc : r = c
      · subst hrc
        rw [triOf_diag]
        cases d
        · exact absurd ⟨rfl, rfl⟩ e
        · rfl
      · exact triOf_inside hrc q
    rw [ht]
    exact (acc_mul E (x r) (a r c)).congr ⟨fun h => ⟨h.1, h.2 hr⟩, fun h => ⟨h.1, fun _ => h.2⟩⟩ rfl rfl rfl

theorem card_le {n m : ℕ} (E : f.Errors u η) (h : m ≤ n) : 0 + ∑ _k ∈ range m, η ≤ n * η := by
  rw [zero_add, sum_const, card_range, nsmul_eq_mul]
  exact mul_le_mul_of_nonneg_right (by exact_mod_cast h) E.eta_nonneg

/-- A sum over a row that stops at, or starts from, the diagonal. -/
theorem acc_row (E : f.Errors u η) {before : Bool} {n i : ℕ} (hi : i < n) {s : FP f} (hs : s.Valid)
    {v : ℕ → FP f} {e w : ℕ → ℝ} {J : ℕ → Prop}
    (hin : ∀ k, k < n → (if before then k ≤ i else i ≤ k) → Acc u 1 η (J k) (v k) (e k) (w k))
    (hout : ∀ k, k < n → ¬ (if before then k ≤ i else i ≤ k) → e k = 0 ∧ w k = 0) :
    Acc u (n + 1) (n * η) (s.Finite ∧ ∀ k, k < n → (if before then k ≤ i else i ≤ k) → J k)
      (if before then StdBLAS.leftSum s (i + 1) v else StdBLAS.leftSum s (n - i) fun k => v (i + k))
      (s.val + ∑ k ∈ range n, e k) (|s.val| + ∑ k ∈ range n, w k) := by
  cases before with
  | true =>
    simp only [if_true] at *
    rw [sum_lower hi _ fun k hk h => (hout k hk (by omega)).1,
      sum_lower hi _ fun k hk h => (hout k hk (by omega)).2]
    refine Acc.mono E.u_nonneg (m := 1 + (i + 1)) (by omega) (Acc.mono_z E.u_nonneg
      (card_le E (m := i + 1) (by omega)) ((Acc.leftSum E (acc_input E.u_nonneg 1 hs) fun k hk =>
        hin k (by omega) (by omega)).congr ?_ rfl rfl rfl))
    exact ⟨fun h => ⟨h.1, fun k hk => h.2 k (by omega) (by omega)⟩,
      fun h => ⟨h.1, fun k hk hki => h.2 k (by omega)⟩⟩
  | false =>
    simp only [Bool.false_eq_true, if_false] at *
    rw [sum_upper hi _ fun k hk => (hout k (by omega) (by omega)).1,
      sum_upper hi _ fun k hk => (hout k (by omega) (by omega)).2]
    refine Acc.mono E.u_nonneg (m := 1 + (n - i)) (by omega) (Acc.mono_z E.u_nonneg
      (card_le E (m := n - i) (by omega)) ((Acc.leftSum E (acc_input E.u_nonneg 1 hs) fun k hk =>
        hin (i + k) (by omega) (by omega)).congr ?_ rfl rfl rfl))
    refine ⟨fun h => ⟨h.1, fun k hk => h.2 _ (by omega) (by omega)⟩,
      fun h => ⟨h.1, fun k hk hki => ?_⟩⟩
    have := h.2 (k - i) (by omega)
    rwa [show i + (k - i) = k by omega] at this

theorem acc_triSeq (E : f.Errors u η) (t : Triangle) (d : Diag) {n : ℕ} (a : ℕ → ℕ → FP f)
    (x : ℕ → FP f) (hx : ∀ k, k < n → (x k).Valid) {s : FP f} (hs : s.Valid) {r : ℕ} (hr : r < n) :
    Acc u (n + 1) (n * η)
      (s.Finite ∧ ∀ k, k < n → t.region r k → (x k).Finite ∧ (triRegion t d r k → (a r k).Finite))
      (triSeq t d n a x s r)
      (s.val + ∑ k ∈ range n, triOf t d (fun i j => (a i j).val) r k * (x k).val)
      (|s.val| + ∑ k ∈ range n, |triOf t d (fun i j => (a i j).val) r k| * |(x k).val|) := by
  have hterm : ∀ k, triTerm d a x r k = if d = .implicitUnit ∧ k = r then x k else a r k * x k := by
    intro k
    unfold triTerm
    by_cases h : d = .implicitUnit ∧ k = r
    · rw [if_pos h, if_pos h, h.2]
    · rw [if_neg h, if_neg h]
  have hout : ∀ k, ¬ t.region r k →
      triOf t d (fun i j => (a i j).val) r k * (x k).val = 0 ∧
      |triOf t d (fun i j => (a i j).val) r k| * |(x k).val| = 0 := by
    intro k hk
    rw [triOf_outside (by rintro rfl; exact hk (by cases t <;> exact le_refl r)) hk]
    simp
  cases t with
  | lower =>
    exact acc_row E (before := true) hr hs (v := fun k => triTerm d a x r k)
      (fun k hk q => acc_term E (t := .lower) (d := d) (a := a) (hx k hk) q (hterm k))
      (fun k _ q => hout k q)
  | upper =>
    exact acc_row E (before := false) hr hs (v := fun k => triTerm d a x r k)
      (fun k hk q => acc_term E (t := .upper) (d := d) (a := a) (hx k hk)
        (show r ≤ k by simpa using q) (hterm k))
      (fun k _ q => hout k (show ¬ r ≤ k by simpa using q))

/-- The in-place product: the diagonal term first, then the strict triangle, by increasing distance
from the diagonal. -/
theorem acc_inPlace (E : f.Errors u η) {before : Bool} {n i : ℕ} (hi : i < n) {s : FP f}
    {v : ℕ → FP f} {e w : ℕ → ℝ} {J : ℕ → Prop} (hs : Acc u 1 η (J i) s (e i) (w i))
    (hin : ∀ k, k < n → (if before then k < i else i < k) → Acc u 1 η (J k) (v k) (e k) (w k))
    (hout : ∀ k, k < n → ¬ (if before then k ≤ i else i ≤ k) → e k = 0 ∧ w k = 0) :
    Acc u n (n * η) (∀ k, k < n → (if before then k ≤ i else i ≤ k) → J k)
      (if before then StdBLAS.leftSum s i fun k => v (i - 1 - k)
        else StdBLAS.leftSum s (n - 1 - i) fun k => v (i + 1 + k))
      (∑ k ∈ range n, e k) (∑ k ∈ range n, w k) := by
  have hz : ∀ m, m + 1 ≤ n → η + ∑ _k ∈ range m, η ≤ n * η := by
    intro m hm
    have := card_le E (m := m + 1) hm
    rw [sum_range_succ] at this
    linarith
  cases before with
  | true =>
    simp only [if_true] at *
    rw [sum_lower hi _ fun k hk h => (hout k hk (by omega)).1,
      sum_lower hi _ fun k hk h => (hout k hk (by omega)).2, sum_range_succ, sum_range_succ,
      add_comm (∑ x ∈ range i, e x), add_comm (∑ x ∈ range i, w x), ← sum_range_reflect e i,
      ← sum_range_reflect w i]
    refine Acc.mono E.u_nonneg (m := 1 + i) (by omega) (Acc.mono_z E.u_nonneg
      (hz i (by omega)) ((Acc.leftSum E hs (J := fun k => J (i - 1 - k)) fun k hk =>
        hin (i - 1 - k) (by omega) (by omega)).congr ?_ rfl rfl rfl))
    refine ⟨fun h => ⟨h i hi le_rfl, fun k hk => h _ (by omega) (by omega)⟩,
      fun h k hk hki => ?_⟩
    rcases hki.lt_or_eq with hki | rfl
    · have := h.2 (i - 1 - k) (by omega)
      rwa [show i - 1 - (i - 1 - k) = k by omega] at this
    · exact h.1
  | false =>
    simp only [Bool.false_eq_true, if_false] at *
    rw [sum_upper' hi _ fun k hk => (hout k (by omega) (by omega)).1,
      sum_upper' hi _ fun k hk => (hout k (by omega) (by omega)).2]
    refine Acc.mono E.u_nonneg (m := 1 + (n - 1 - i)) (by omega) (Acc.mono_z E.u_nonneg
      (hz (n - 1 - i) (by omega)) ((Acc.leftSum E hs (J := fun k => J (i + 1 + k)) fun k hk =>
        hin (i + 1 + k) (by omega) (by omega)).congr ?_ rfl rfl rfl))
    refine ⟨fun h => ⟨h i hi le_rfl, fun k hk => h _ (by omega) (by omega)⟩,
      fun h k hk hki => ?_⟩
    rcases hki.lt_or_eq with hki | rfl
    · have := h.2 (k - i - 1) (by omega)
      rwa [show i + 1 + (k - i - 1) = k by omega] at this
    · exact h.1

/-- An element of a product with a triangular matrix. -/
theorem acc_triElement (E : f.Errors u η) {before : Bool} {d : Diag} {n i : ℕ} (hi : i < n)
    {s diag : FP f} (hs : s.Valid) {v : ℕ → FP f} {e w : ℕ → ℝ} {J : ℕ → Prop}
    (hd : Acc u 1 η (J i) diag (e i) (w i))
    (hin : ∀ k, k < n → (if before then k < i else i < k) → Acc u 1 η (J k) (v k) (e k) (w k))
    (hout : ∀ k, k < n → ¬ (if before then k ≤ i else i ≤ k) → e k = 0 ∧ w k = 0) :
    Acc u (n + 1) (n * η) (s.Finite ∧ ∀ k, k < n → (if before then k ≤ i else i ≤ k) → J k)
      (triElement before d n i v diag s) (s.val + ∑ k ∈ range n, e k)
      (|s.val| + ∑ k ∈ range n, w k) := by
  have hz : ∀ m, m + 1 ≤ n → 0 + ∑ _k ∈ range m, η + η ≤ n * η := by
    intro m hm
    have := card_le E (m := m + 1) hm
    rw [sum_range_succ] at this
    linarith
  have hu := E.u_nonneg
  cases before with
  | true =>
    simp only [if_true] at *
    rw [sum_lower hi _ fun k hk h => (hout k hk (by omega)).1,
      sum_lower hi _ fun k hk h => (hout k hk (by omega)).2, sum_range_succ, sum_range_succ,
      ← add_assoc, ← add_assoc]
    unfold triElement
    refine Acc.mono hu (m := 1 + i + 1) (by omega) (Acc.mono_z hu (hz i (by omega))
      (((Acc.leftSum E (acc_input hu 1 hs) (J := J) fun k hk => hin k (by omega) hk).add E
        (hd.mono hu (by omega))).congr ?_ rfl rfl rfl))
    refine ⟨fun h => ⟨⟨h.1, fun k hk => h.2 k (by omega) (by omega)⟩, h.2 i hi le_rfl⟩,
      fun h => ⟨h.1.1, fun k hk hki => ?_⟩⟩
    rcases hki.lt_or_eq with hki | rfl
    · exact h.1.2 k hki
    · exact h.2
  | false =>
    simp only [Bool.false_eq_true, if_false] at *
    rw [sum_upper' hi _ fun k hk => (hout k (by omega) (by omega)).1,
      sum_upper' hi _ fun k hk => (hout k (by omega) (by omega)).2]
    have conv : ∀ {P : Prop}, (P ∧ (∀ k, k < n → i ≤ k → J k)) ↔
        ((P ∧ J i) ∧ ∀ k, k < n - 1 - i → J (i + 1 + k)) := by
      intro P
      refine ⟨fun h => ⟨⟨h.1, h.2 i hi le_rfl⟩, fun k hk => h.2 _ (by omega) (by omega)⟩,
        fun h => ⟨h.1.1, fun k hk hki => ?_⟩⟩
      rcases hki.lt_or_eq with hki | rfl
      · have := h.2 (k - i - 1) (by omega)
        rwa [show i + 1 + (k - i - 1) = k by omega] at this
      · exact h.1.2
    cases d with
    | explicit =>
      unfold triElement
      rw [← add_assoc, ← add_assoc]
      refine Acc.mono hu (m := 1 + 1 + (n - 1 - i)) (by omega) (Acc.mono_z hu ?_
        ((Acc.leftSum E ((acc_input hu 1 hs).add E hd) (J := fun k => J (i + 1 + k)) fun k hk =>
          (hin (i + 1 + k) (by omega) (by omega)).mono hu (by omega)).congr conv rfl rfl rfl))
      have := hz (n - 1 - i) (by omega)
      linarith
    | implicitUnit =>
      unfold triElement
      rw [add_comm (e i), add_comm (w i), ← add_assoc, ← add_assoc]
      refine Acc.mono hu (m := 1 + (n - 1 - i) + 1) (by omega) (Acc.mono_z hu
        (hz (n - 1 - i) (by omega))
        (((Acc.leftSum E (acc_input hu 1 hs) (J := fun k => J (i + 1 + k)) fun k hk =>
          hin (i + 1 + k) (by omega) (by omega)).add E (hd.mono hu (by omega))).congr ?_ rfl rfl rfl))
      rw [conv]
      exact ⟨fun h => ⟨⟨h.1.1, h.2⟩, h.1.2⟩, fun h => ⟨⟨h.1.1, h.2⟩, h.1.2⟩⟩

/-- A sum that starts from zero. -/
theorem Acc.from_zero {m : ℕ} {z : ℝ} {I : Prop} {r : FP f} {e w : ℝ}
    (c : Acc u m z ((0 : FP f).Finite ∧ I) r ((0 : FP f).val + e) (|(0 : FP f).val| + w)) :
    Acc u m z I r e w :=
  c.congr ⟨fun h => ⟨trivial, h⟩, fun h => h.2⟩ (zero_add _).symm
    (by rw [show (0 : FP f).val = 0 from rfl, abs_zero, zero_add]) rfl

theorem mul_comm' (a b : FP f) : a * b = b * a := by
  rw [mul_def, mul_def]
  cases a <;> cases b <;> simp only [mul, _root_.mul_comm, Bool.xor_comm]

theorem ite_diag {α : Type} (c : ℕ → ℕ → α) (i j : ℕ) : (if i = j then c i i else c i j) = c i j := by
  by_cases h : i = j
  · rw [if_pos h, h]
  · rw [if_neg h]

theorem diag_term (d : Diag) (r : ℕ) (p q : FP f) :
    (if d = .explicit then p else q) = if d = .implicitUnit ∧ r = r then q else p := by
  cases d <;> simp

theorem tri_out {t : Triangle} {d : Diag} {a : ℕ → ℕ → FP f} {r k : ℕ} (hk : ¬ t.region r k) :
    triOf t d (fun i j => (a i j).val) r k = 0 :=
  triOf_outside (by rintro rfl; exact hk (by cases t <;> exact le_refl r)) hk

theorem acc_triSeqInPlace (E : f.Errors u η) (t : Triangle) (d : Diag) {n : ℕ} (a : ℕ → ℕ → FP f)
    (x : ℕ → FP f) (hx : ∀ k, k < n → (x k).Valid) {r : ℕ} (hr : r < n) {s : FP f}
    (hs : s = if d = .explicit then a r r * x r else x r) :
    Acc u n (n * η)
      (∀ k, k < n → t.region r k → (x k).Finite ∧ (triRegion t d r k → (a r k).Finite))
      (triSeqInPlace t n a x s r)
      (∑ k ∈ range n, triOf t d (fun i j => (a i j).val) r k * (x k).val)
      (∑ k ∈ range n, |triOf t d (fun i j => (a i j).val) r k| * |(x k).val|) := by
  rw [diag_term d r] at hs
  cases t with
  | lower =>
    exact acc_inPlace E (before := true) hr (v := fun k => a r k * x k)
      (acc_term E (t := .lower) (a := a) (hx r hr) (le_refl r) hs)
      (fun k hk q => by
        have q' : k < r := by simpa using q
        exact acc_term E (t := .lower) (d := d) (a := a) (hx k hk) (show k ≤ r by omega)
          (by rw [if_neg (by omega)]))
      (fun k _ q => by rw [tri_out (t := .lower) q]; simp)
  | upper =>
    exact acc_inPlace E (before := false) hr (v := fun k => a r k * x k)
      (acc_term E (t := .upper) (a := a) (hx r hr) (le_refl r) hs)
      (fun k hk q => by
        have q' : r < k := by simpa using q
        exact acc_term E (t := .upper) (d := d) (a := a) (hx k hk) (show r ≤ k by omega)
          (by rw [if_neg (by omega)]))
      (fun k _ q => by rw [tri_out (t := .upper) (show ¬ r ≤ k by simpa using q)]; simp)

theorem acc_triLeft (E : f.Errors u η) (t : Triangle) (d : Diag) {n m : ℕ} (a : ℕ → ℕ → FP f)
    (x : ℕ → FP f) (hx : ∀ k, k < n → (x k).Valid) (hm : m = n) {r : ℕ} (hr : r < n) :
    Acc u (n + 1) (n * η)
      (∀ k, k < n → t.region r k → (x k).Finite ∧ (triRegion t d r k → (a r k).Finite))
      (triElement (t = .lower) d m r (fun k => a r k * x k)
        (if d = .explicit then a r r * x r else x r) 0)
      (∑ k ∈ range n, triOf t d (fun i j => (a i j).val) r k * (x k).val)
      (∑ k ∈ range n, |triOf t d (fun i j => (a i j).val) r k| * |(x k).val|) := by
  subst hm
  refine Acc.from_zero ?_
  cases t with
  | lower =>
    exact acc_triElement E (before := true) hr zero_valid
      (acc_term E (t := .lower) (a := a) (hx r hr) (le_refl r) (diag_term d r _ _))
      (fun k hk q => by
        have q' : k < r := by simpa using q
        exact acc_term E (t := .lower) (d := d) (a := a) (hx k hk) (show k ≤ r by omega)
          (by rw [if_neg (by omega)]))
      (fun k _ q => by rw [tri_out (t := .lower) q]; simp)
  | upper =>
    exact acc_triElement E (before := false) hr zero_valid
      (acc_term E (t := .upper) (a := a) (hx r hr) (le_refl r) (diag_term d r _ _))
      (fun k hk q => by
        have q' : r < k := by simpa using q
        exact acc_term E (t := .upper) (d := d) (a := a) (hx k hk) (show r ≤ k by omega)
          (by rw [if_neg (by omega)]))
      (fun k _ q => by rw [tri_out (t := .upper) (show ¬ r ≤ k by simpa using q)]; simp)

theorem acc_triRight (E : f.Errors u η) (t : Triangle) (d : Diag) {n m : ℕ} (a : ℕ → ℕ → FP f)
    (x : ℕ → FP f) (hx : ∀ k, k < n → (x k).Valid) (hm : m = n) {c : ℕ} (hc : c < n) :
    Acc u (n + 1) (n * η)
      (∀ k, k < n → t.region k c → (x k).Finite ∧ (triRegion t d k c → (a k c).Finite))
      (triElement (t = .upper) d m c (fun k => x k * a k c)
        (if d = .explicit then x c * a c c else x c) 0)
      (∑ k ∈ range n, (x k).val * triOf t d (fun i j => (a i j).val) k c)
      (∑ k ∈ range n, |(x k).val| * |triOf t d (fun i j => (a i j).val) k c|) := by
  subst hm
  refine Acc.from_zero ?_
  cases t with
  | upper =>
    exact acc_triElement E (before := true) hc zero_valid
      (acc_term_right E (t := .upper) (a := a) (hx c hc) (le_refl c) (diag_term d c _ _))
      (fun k hk q => by
        have q' : k < c := by simpa using q
        exact acc_term_right E (t := .upper) (d := d) (a := a) (hx k hk) (show k ≤ c by omega)
          (by rw [if_neg (by omega)]))
      (fun k _ q => by rw [tri_out (t := .upper) q]; simp)
  | lower =>
    exact acc_triElement E (before := false) hc zero_valid
      (acc_term_right E (t := .lower) (a := a) (hx c hc) (le_refl c) (diag_term d c _ _))
      (fun k hk q => by
        have q' : c < k := by simpa using q
        exact acc_term_right E (t := .lower) (d := d) (a := a) (hx k hk) (show c ≤ k by omega)
          (by rw [if_neg (by omega)]))
      (fun k _ q => by rw [tri_out (t := .lower) (show ¬ c ≤ k by simpa using q)]; simp)

/-- The in-place product from the right: the diagonal term first, then the others in ascending
order. -/
theorem acc_triRightInPlace_upper (E : f.Errors u η) (d : Diag) {n : ℕ} (a : ℕ → ℕ → FP f)
    (x : ℕ → FP f) (hx : ∀ k, k < n → (x k).Valid) {c : ℕ} (hc : c < n) :
    Acc u n (n * η)
      (∀ k, k < n → Triangle.upper.region k c →
        (x k).Finite ∧ (triRegion .upper d k c → (a k c).Finite))
      (StdBLAS.leftSum (if d = .explicit then x c * a c c else x c) c fun k => x k * a k c)
      (∑ k ∈ range n, (x k).val * triOf .upper d (fun i j => (a i j).val) k c)
      (∑ k ∈ range n, |(x k).val| * |triOf .upper d (fun i j => (a i j).val) k c|) := by
  rw [sum_lower hc _ fun k hk h => by
      rw [tri_out (t := .upper) (show ¬ k ≤ c by omega), mul_zero],
    sum_lower hc _ fun k hk h => by
      rw [tri_out (t := .upper) (show ¬ k ≤ c by omega), abs_zero, mul_zero],
    sum_range_succ, sum_range_succ, add_comm (∑ x_1 ∈ range c, _),
    add_comm (∑ x_1 ∈ range c, |_| * _)]
  have hs := acc_term_right E (t := .upper) (a := a) (hx c hc) (le_refl c)
    (diag_term d c (x c * a c c) (x c))
  refine Acc.mono E.u_nonneg (m := 1 + c) (by omega) (Acc.mono_z E.u_nonneg ?_
    ((Acc.leftSum E hs fun k hk =>
      acc_term_right E (t := .upper) (d := d) (a := a) (hx k (by omega)) (show k ≤ c by omega)
        (by rw [if_neg (by omega)])).congr ?_ rfl rfl rfl))
  · have := card_le E (m := c + 1) (show c + 1 ≤ n from hc)
    rw [sum_range_succ] at this
    linarith
  · refine ⟨fun h => ⟨h c hc (le_refl c), fun k hk => h k (by omega) (show k ≤ c by omega)⟩,
      fun h k hk hkc => ?_⟩
    have hkc' : k ≤ c := hkc
    rcases hkc'.lt_or_eq with hlt | rfl
    · exact h.2 k hlt
    · exact h.1

theorem acc_triRightInPlace_lower (E : f.Errors u η) (d : Diag) {n : ℕ} (a : ℕ → ℕ → FP f)
    (x : ℕ → FP f) (hx : ∀ k, k < n → (x k).Valid) {c : ℕ} (hc : c < n) :
    Acc u n (n * η)
      (∀ k, k < n → Triangle.lower.region k c →
        (x k).Finite ∧ (triRegion .lower d k c → (a k c).Finite))
      (StdBLAS.leftSum (if d = .explicit then x c * a c c else x c) (n - 1 - c) fun k =>
        x (c + 1 + k) * a (c + 1 + k) c)
      (∑ k ∈ range n, (x k).val * triOf .lower d (fun i j => (a i j).val) k c)
      (∑ k ∈ range n, |(x k).val| * |triOf .lower d (fun i j => (a i j).val) k c|) :=
  acc_inPlace E (before := false) hc (v := fun k => x k * a k c)
    (acc_term_right E (t := .lower) (a := a) (hx c hc) (le_refl c) (diag_term d c _ _))
    (fun k hk q => by
      have q' : c < k := by simpa using q
      exact acc_term_right E (t := .lower) (d := d) (a := a) (hx k hk) (show c ≤ k by omega)
        (by rw [if_neg (by omega)]))
    (fun k _ q => by rw [tri_out (t := .lower) (show ¬ c ≤ k by simpa using q)]; simp)

/-! ## Substitution -/

theorem finite_div {a : FP f} {y : ℝ} (h : (a / fin y).Finite) : a.Finite ∧ y ≠ 0 := by
  rw [div_def] at h
  cases a with
  | nan => exact h.elim
  | inf s => exact h.elim
  | fin x =>
    refine ⟨trivial, ?_⟩
    rintro rfl
    simp only [div, if_true] at h
    split_ifs at h <;> exact h.elim

theorem div_real {u η P z M s S x y : ℝ} (hu : 0 ≤ u) (hy : y ≠ 0)
    (hs : |s - S| ≤ (P - 1) * M + P * z) (hS : |S| ≤ M)
    (hx : |x - s / y| ≤ u * |s / y| + η) :
    |S - y * x| ≤ ((1 + u) * P - 1) * M + (1 + u) * P * z + |y| * η := by
  have hy' : 0 < |y| := abs_pos.2 hy
  have h1 : |y * x - s| ≤ u * |s| + |y| * η := by
    have h2 := mul_le_mul_of_nonneg_left hx hy'.le
    rw [← abs_mul, abs_div] at h2
    rw [show y * (x - s / y) = y * x - s by field_simp] at h2
    rw [mul_add, show |y| * (u * (|s| / |y|)) = u * |s| by field_simp] at h2
    exact h2
  have h3 : |s| ≤ P * M + P * z := by
    have := abs_add_le (s - S) S
    rw [sub_add_cancel] at this
    linarith
  have h4 := mul_le_mul_of_nonneg_left h3 hu
  calc |S - y * x| = |-(s - S) + -(y * x - s)| := by congr 1; ring
    _ ≤ |-(s - S)| + |-(y * x - s)| := abs_add_le _ _
    _ = |s - S| + |y * x - s| := by rw [abs_neg, abs_neg]
    _ ≤ _ := by linarith

/-- A row of a solve before the division. -/
noncomputable def solvePart (t : Triangle) (n i : ℕ) (v : ℕ → FP f) (b : FP f) : FP f :=
  match t with
  | .lower => StdBLAS.leftDiff b i v
  | .upper => StdBLAS.leftDiff b (n - 1 - i) fun k => v (i + 1 + k)

theorem solveRow_eq (t : Triangle) (d : Diag) (n i : ℕ) (v : ℕ → FP f) (b diag : FP f) :
    solveRow t d n i v b diag =
      if d = .explicit then solvePart t n i v b / diag else solvePart t n i v b := by
  cases t <;> rfl

/-- The strict part of a row. -/
theorem acc_strict (E : f.Errors u η) {t : Triangle} {n i : ℕ} (hi : i < n) {b : FP f}
    (hb : b.Valid) {v : ℕ → FP f} {e w : ℕ → ℝ} {J : ℕ → Prop}
    (hin : ∀ k, k < n → t.region i k → k ≠ i → Acc u 1 η (J k) (v k) (e k) (w k))
    (hout : ∀ k, k < n → ¬ t.region i k → e k = 0 ∧ w k = 0) :
    Acc u n (n * η) (b.Finite ∧ ∀ k, k < n → t.region i k → k ≠ i → J k)
      (solvePart t n i v b)
      (b.val - (∑ k ∈ range n, e k - e i)) (|b.val| + (∑ k ∈ range n, w k - w i)) := by
  have hu := E.u_nonneg
  cases t with
  | lower =>
    have hl : ∀ {g : ℕ → ℝ}, (∀ k, k < n → ¬ k ≤ i → g k = 0) →
        ∑ k ∈ range n, g k - g i = ∑ k ∈ range i, g k := by
      intro g hg
      rw [sum_lower hi g fun k hk h => hg k hk (by omega), sum_range_succ, add_sub_cancel_right]
    rw [hl fun k hk h => (hout k hk h).1, hl fun k hk h => (hout k hk h).2]
    refine Acc.mono hu (m := 1 + i) (by omega) (Acc.mono_z hu (card_le E (m := i) (by omega))
      ((Acc.leftDiff E (acc_input hu 1 hb) (J := J) fun k hk =>
        hin k (by omega) (show k ≤ i by omega) (by omega)).congr ?_ rfl rfl rfl))
    refine ⟨fun h => ⟨h.1, fun k hk => h.2 k (by omega) (show k ≤ i by omega) (by omega)⟩,
      fun h => ⟨h.1, fun k hk hki hne => h.2 k ?_⟩⟩
    have : k ≤ i := hki
    omega
  | upper =>
    have hl : ∀ {g : ℕ → ℝ}, (∀ k, k < n → ¬ i ≤ k → g k = 0) →
        ∑ k ∈ range n, g k - g i = ∑ k ∈ range (n - 1 - i), g (i + 1 + k) := by
      intro g hg
      rw [sum_upper' hi g fun k hk => hg k (by omega) (by omega), add_sub_cancel_left]
    rw [hl fun k hk h => (hout k hk h).1, hl fun k hk h => (hout k hk h).2]
    refine Acc.mono hu (m := 1 + (n - 1 - i)) (by omega) (Acc.mono_z hu
      (card_le E (m := n - 1 - i) (by omega))
      ((Acc.leftDiff E (acc_input hu 1 hb) (J := fun k => J (i + 1 + k)) fun k hk =>
        hin (i + 1 + k) (by omega) (show i ≤ i + 1 + k by omega) (by omega)).congr ?_ rfl rfl rfl))
    refine ⟨fun h => ⟨h.1, fun k hk => h.2 _ (by omega) (show i ≤ i + 1 + k by omega) (by omega)⟩,
      fun h => ⟨h.1, fun k hk hki hne => ?_⟩⟩
    have hki' : i ≤ k := hki
    have := h.2 (k - i - 1) (by omega)
    rwa [show i + 1 + (k - i - 1) = k by omega] at this

/-- One row of a solve: how far the computed row is from satisfying its equation. -/
theorem acc_solve (E : f.Errors u η) {t : Triangle} {d : Diag} {n i : ℕ} (hi : i < n) {b diag x : FP f}
    (hb : b.Valid) {v : ℕ → FP f} {e w : ℕ → ℝ} {J : ℕ → Prop}
    (hin : ∀ k, k < n → t.region i k → k ≠ i → Acc u 1 η (J k) (v k) (e k) (w k))
    (hout : ∀ k, k < n → ¬ t.region i k → e k = 0 ∧ w k = 0) (hwi : 0 ≤ w i)
    (hdiag : d = .explicit → diag.Finite)
    (hei : e i = if d = .explicit then diag.val * x.val else x.val)
    (hx : x = solveRow t d n i v b diag) (hfin : x.Finite) :
    (b.Finite ∧ (d = .explicit → diag.val ≠ 0) ∧ ∀ k, k < n → t.region i k → k ≠ i → J k) ∧
    |b.val - ∑ k ∈ range n, e k| ≤ ((1 + u) ^ (n + 1) - 1) * (|b.val| + ∑ k ∈ range n, w k) +
      ((1 + u) ^ (n + 1) * n + if d = .explicit then |diag.val| else 0) * η := by
  have hu := E.u_nonneg
  have c := acc_strict E hi hb hin hout
  have hP : 1 ≤ (1 + u) ^ n := one_le_pow₀ (by linarith)
  have hP' : (1 + u) ^ n ≤ (1 + u) ^ (n + 1) := pow_le_pow_right₀ (by linarith) (by omega)
  rw [solveRow_eq] at hx
  generalize solvePart t n i v b = s at *
  have hM : 0 ≤ |b.val| + (∑ k ∈ range n, w k - w i) := (abs_nonneg _).trans c.abs_le
  have hMw : |b.val| + (∑ k ∈ range n, w k - w i) ≤ |b.val| + ∑ k ∈ range n, w k := by linarith
  have hz := c.z_nonneg
  have e1 : b.val - ∑ k ∈ range n, e k = b.val - (∑ k ∈ range n, e k - e i) - e i := by ring
  cases d with
  | implicitUnit =>
    simp only [reduceCtorEq, if_false] at *
    subst hx
    have := c.error hfin
    refine ⟨⟨this.1.1, fun h => h.elim, this.1.2⟩, ?_⟩
    rw [hei] at e1 this
    rw [e1, ← abs_neg, neg_sub]
    refine this.2.trans ?_
    have h1 := mul_le_mul_of_nonneg_left hMw (sub_nonneg.2 hP)
    have h2 := mul_le_mul_of_nonneg_right (sub_le_sub_right hP' 1) (hM.trans hMw)
    have h3 := mul_le_mul_of_nonneg_right hP' hz
    linarith
  | explicit =>
    simp only [if_true, true_imp_iff] at *
    have hx' : x = s / fin diag.val := by rw [hx]; congr 1; exact hdiag.eq
    obtain ⟨hs, hy⟩ := finite_div (hx' ▸ hfin)
    have hd : x = ofReal f (s.val / diag.val) := by
      rw [hx', hs.eq]
      change FP.div (fin s.val) (fin diag.val) = _
      simp only [div, if_neg hy]
      rfl
    have hxv : x.val = f.rnd (s.val / diag.val) := by rw [hd] at hfin ⊢; exact ofReal_val hfin
    have := c.error hs
    refine ⟨⟨this.1.1, hy, this.1.2⟩, ?_⟩
    have key := div_real hu hy this.2 c.abs_le (E.err (s.val / diag.val))
    rw [← hxv, ← pow_succ'] at key
    rw [hei] at e1 key
    rw [e1]
    refine key.trans ?_
    have h1 := mul_le_mul_of_nonneg_left hMw (sub_nonneg.2 (hP.trans hP'))
    linarith

theorem acc_solveLeft (E : f.Errors u η) {t : Triangle} {d : Diag} {n i : ℕ} {a : ℕ → ℕ → FP f}
    {r : ℕ → FP f} {b : FP f} (hi : i < n) (hb : b.Valid) (hdiag : d = .explicit → (a i i).Finite)
    (hx : r i = solveRow t d n i (fun k => a i k * r k) b (a i i)) (hfin : (r i).Finite) :
    (b.Finite ∧ (d = .explicit → (a i i).val ≠ 0) ∧
      ∀ k, k < n → t.region i k → k ≠ i → (a i k).Finite ∧ (r k).Finite) ∧
    |b.val - ∑ k ∈ range n, triOf t d (fun i j => (a i j).val) i k * (r k).val| ≤
      ((1 + u) ^ (n + 1) - 1) * (|b.val| +
        ∑ k ∈ range n, |triOf t d (fun i j => (a i j).val) i k| * |(r k).val|) +
      ((1 + u) ^ (n + 1) * n + if d = .explicit then |(a i i).val| else 0) * η := by
  refine acc_solve E (J := fun k => (a i k).Finite ∧ (r k).Finite) hi hb (fun k _ q hk => ?_)
    (fun k _ q => ?_) (by positivity) hdiag ?_ hx hfin
  · rw [triOf_inside (fun e => hk e.symm) q]
    exact acc_mul E _ _
  · rw [tri_out q]; simp
  · rw [triOf_diag]
    cases d <;> simp

theorem other_region (t : Triangle) (i j : ℕ) : t.other.region i j ↔ t.region j i := by
  cases t <;> exact Iff.rfl

theorem acc_solveRight (E : f.Errors u η) {t : Triangle} {d : Diag} {n j : ℕ} {a : ℕ → ℕ → FP f}
    {r : ℕ → FP f} {b : FP f} (hj : j < n) (hb : b.Valid) (hdiag : d = .explicit → (a j j).Finite)
    (hx : r j = solveRow t.other d n j (fun k => r k * a k j) b (a j j)) (hfin : (r j).Finite) :
    (b.Finite ∧ (d = .explicit → (a j j).val ≠ 0) ∧
      ∀ k, k < n → t.region k j → k ≠ j → (r k).Finite ∧ (a k j).Finite) ∧
    |b.val - ∑ k ∈ range n, (r k).val * triOf t d (fun i j => (a i j).val) k j| ≤
      ((1 + u) ^ (n + 1) - 1) * (|b.val| +
        ∑ k ∈ range n, |(r k).val| * |triOf t d (fun i j => (a i j).val) k j|) +
      ((1 + u) ^ (n + 1) * n + if d = .explicit then |(a j j).val| else 0) * η := by
  have key := acc_solve E (e := fun k => (r k).val * triOf t d (fun i j => (a i j).val) k j)
    (w := fun k => |(r k).val| * |triOf t d (fun i j => (a i j).val) k j|)
    (J := fun k => (r k).Finite ∧ (a k j).Finite) hj hb (fun k _ q hk => ?_)
    (fun k _ q => ?_) (by positivity) hdiag ?_ hx hfin
  · exact ⟨⟨key.1.1, key.1.2.1, fun k hk q => key.1.2.2 k hk ((other_region t j k).2 q)⟩, key.2⟩
  · rw [triOf_inside hk ((other_region t j k).1 q)]
    exact acc_mul E _ _
  · rw [tri_out (fun h => q ((other_region t j k).2 h))]; simp
  · rw [triOf_diag]
    cases d <;> simp [mul_comm]

end Tri

/-! ## Absolute values -/

theorem acc_abs (E : f.Errors u η) (n : ℕ) (x : ℕ → FP f) {s : FP f} (hs : s.Valid)
    (hx : ∀ k, k < n → (x k).Valid) :
    Acc u n 0 (s.Finite ∧ ∀ k, k < n → (x k).Finite)
      (foldUp n (fun s k => s + abs (x k)) s)
      (s.val + ∑ k ∈ range n, |(x k).val|) (|s.val| + ∑ k ∈ range n, |(x k).val|) := by
  have e : foldUp n (fun s k => s + abs (x k)) s = StdBLAS.leftSum s n fun k => abs (x k) := by
    induction n with
    | zero => rfl
    | succ n ih => exact congrArg (· + abs (x n)) (ih fun k hk => hx k (by omega))
  rw [e]
  have := Acc.leftSum E (n := n) (acc_input E.u_nonneg 0 hs) fun k hk =>
    acc_input E.u_nonneg 0 ((hx k hk).abs E)
  have v : ∀ a : FP f, (abs a).val = |a.val| := fun a => by cases a <;> simp [abs, val]
  simp only [v, abs_abs, finite_abs, sum_const_zero, add_zero, zero_add] at this
  exact this

/-- The largest of sums of absolute values. -/
theorem acc_max (E : f.Errors u η) {m n : ℕ} {x : ℕ → ℕ → FP f}
    (vx : ∀ i j, i < m → j < n → (x i j).Valid) (hx : ∀ i j, i < m → j < n → (x i j).Finite) {N : ℝ}
    (hN : IsGreatest {y | ∃ i, i < m ∧ y = ∑ j ∈ range n, |(x i j).val|} N)
    (hbig : (1 + u) ^ n * N ≤ f.big) :
    (∀ i, i < m → (foldUp n (fun s j => s + abs (x i j)) (0 : FP f)).Finite) ∧
    (∀ i, i < m → |(foldUp n (fun s j => s + abs (x i j)) (0 : FP f)).val -
      (∑ j ∈ range n, |(x i j).val|)| ≤ ((1 + u) ^ n - 1) * ∑ j ∈ range n, |(x i j).val|) ∧
    (foldUp m (fun r i => stdMax (foldUp n (fun s j => s + abs (x i j)) (0 : FP f)) r) 0).Finite ∧
    |(foldUp m (fun r i => stdMax (foldUp n (fun s j => s + abs (x i j)) (0 : FP f)) r) 0).val - N| ≤
      ((1 + u) ^ n - 1) * N := by
  have hu := E.u_nonneg
  have hP : 1 ≤ (1 + u) ^ n := one_le_pow₀ (by linarith)
  have hc : ∀ i, i < m → Acc u n 0 (∀ j, j < n → (x i j).Finite)
      (foldUp n (fun s j => s + abs (x i j)) (0 : FP f)) (∑ j ∈ range n, |(x i j).val|)
      (∑ j ∈ range n, |(x i j).val|) := fun i hi =>
    (acc_abs E n (x i) zero_valid fun j hj => vx i j hi hj).from_zero
  have h1 : ∀ i, i < m → (foldUp n (fun s j => s + abs (x i j)) (0 : FP f)).Finite := fun i hi => by
    refine (hc i hi).finite (fun j hj => hx i j hi hj) (hbig.trans' ?_)
    rw [add_zero]
    exact mul_le_mul_of_nonneg_left (hN.2 ⟨i, hi, rfl⟩) (by linarith)
  have h2 : ∀ i, i < m → |(foldUp n (fun s j => s + abs (x i j)) (0 : FP f)).val -
      (∑ j ∈ range n, |(x i j).val|)| ≤ ((1 + u) ^ n - 1) * ∑ j ∈ range n, |(x i j).val| := fun i hi => by
    have := ((hc i hi).error (h1 i hi)).2
    rwa [mul_zero, add_zero] at this
  refine ⟨h1, h2, ?_⟩
  generalize hρ : (fun i => foldUp n (fun s j => s + abs (x i j)) (0 : FP f)) = ρ at *
  have hρ' : ∀ i, foldUp n (fun s j => s + abs (x i j)) (0 : FP f) = ρ i := fun i => congrFun hρ i
  simp only [hρ'] at *
  have key : ∀ k, k ≤ m → ∃ M, foldUp k (fun r i => stdMax (ρ i) r) (0 : FP f) = fin M ∧
      (M = 0 ∨ ∃ i, i < k ∧ M = (ρ i).val) ∧ 0 ≤ M ∧ ∀ i, i < k → (ρ i).val ≤ M := by
    intro k
    induction k with
    | zero => exact fun _ => ⟨0, rfl, .inl rfl, le_rfl, fun i hi => absurd hi (Nat.not_lt_zero i)⟩
    | succ k ih =>
      intro hk
      obtain ⟨M, e, hM, hM0, hle⟩ := ih (by omega)
      change ∃ M', stdMax (ρ k) (foldUp k (fun r i => stdMax (ρ i) r) 0) = fin M' ∧ _
      rw [e]
      have hk' := (h1 k (by omega)).eq
      by_cases hlt : (ρ k).val < M
      · refine ⟨M, ?_, hM.imp id fun ⟨i, hi, e⟩ => ⟨i, by omega, e⟩, hM0, fun i hi => ?_⟩
        · rw [hk']
          exact if_pos (decide_eq_true hlt)
        · rcases Nat.lt_succ_iff_lt_or_eq.1 hi with hi | rfl
          · exact hle i hi
          · exact hlt.le
      · rw [not_lt] at hlt
        refine ⟨(ρ k).val, ?_, .inr ⟨k, by omega, rfl⟩, hM0.trans hlt, fun i hi => ?_⟩
        · conv_lhs => rw [hk']
          exact if_neg (by simpa [FloatOps.lt, lt] using hlt)
        · rcases Nat.lt_succ_iff_lt_or_eq.1 hi with hi | rfl
          · exact (hle i hi).trans hlt
          · exact le_rfl
  obtain ⟨M, e, hM, hM0, hle⟩ := key m le_rfl
  rw [e]
  refine ⟨trivial, ?_⟩
  change |M - N| ≤ _
  obtain ⟨i0, hi0, eN⟩ := hN.1
  have hN0 : 0 ≤ N := by rw [eN]; exact sum_nonneg fun _ _ => abs_nonneg _
  have hlow : (ρ i0).val ≤ M := hle i0 hi0
  have hb0 := h2 i0 hi0
  rw [← eN, abs_le] at hb0
  rw [abs_le]
  refine ⟨by linarith [hb0.1], ?_⟩
  rcases hM with rfl | ⟨i, hi, rfl⟩
  · have := mul_nonneg (sub_nonneg.2 hP) hN0
    linarith
  · have h3 := (abs_le.1 (h2 i hi)).2
    have h4 : ∑ j ∈ range n, |(x i j).val| ≤ N := hN.2 ⟨i, hi, rfl⟩
    have h5 := mul_le_mul_of_nonneg_left h4 (sub_nonneg.2 hP)
    linarith

end FP
end StdBLAS

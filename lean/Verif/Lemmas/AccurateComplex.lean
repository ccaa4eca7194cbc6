import Verif.Spec.AccurateComplex
import Verif.Lemmas.Accurate

/-! # Error analysis of sums and products of complex floating-point numbers -/

namespace StdBLAS
open Finset

namespace CFP
variable {f : Format} {R : Recovery f} {u η : ℝ}

theorem size_nonneg (z : ℂ) : 0 ≤ size z := add_nonneg (abs_nonneg _) (abs_nonneg _)

theorem size_zero : size 0 = 0 := by simp [size]

theorem size_one : size 1 = 1 := by simp [size]

theorem size_neg (z : ℂ) : size (-z) = size z := by simp [size]

theorem size_conj (z : ℂ) : size ((starRingEnd ℂ) z) = size z := by simp [size]

theorem size_add_le (z w : ℂ) : size (z + w) ≤ size z + size w := by
  have h1 := abs_add_le z.re w.re
  have h2 := abs_add_le z.im w.im
  simp only [size, Complex.add_re, Complex.add_im]
  linarith

theorem size_mul_le (z w : ℂ) : size (z * w) ≤ size z * size w := by
  have h1 := abs_sub (z.re * w.re) (z.im * w.im)
  have h2 := abs_add_le (z.re * w.im) (z.im * w.re)
  simp only [abs_mul] at h1 h2
  simp only [size, Complex.mul_re, Complex.mul_im]
  calc |z.re * w.re - z.im * w.im| + |z.re * w.im + z.im * w.re|
      ≤ (|z.re| * |w.re| + |z.im| * |w.im|) + (|z.re| * |w.im| + |z.im| * |w.re|) := add_le_add h1 h2
    _ = _ := by ring

theorem val_zero : (0 : CFP f R).val = 0 := rfl

theorem zero_finite : (0 : CFP f R).Finite := ⟨trivial, trivial⟩

theorem zero_valid : (0 : CFP f R).Valid := ⟨FP.zero_valid, FP.zero_valid⟩

theorem finite_conj {a : CFP f R} : (ConjOps.conj a).Finite ↔ a.Finite :=
  and_congr Iff.rfl FP.finite_neg

theorem val_conj (a : CFP f R) : (ConjOps.conj a).val = (starRingEnd ℂ) a.val := by
  apply Complex.ext
  · rfl
  · exact FP.val_neg a.im

theorem re_valid {a : CFP f R} (h : a.Valid) : (ConjOps.re a).Valid := ⟨h.1, FP.zero_valid⟩

theorem mul_eq (a b : CFP f R) (h : (a * b).Finite) :
    a * b = ⟨a.re * b.re - a.im * b.im, a.re * b.im + a.im * b.re⟩ := by
  change mul a b = _
  change (mul a b).Finite at h
  unfold mul at *
  split_ifs at * with c
  · exact absurd h.1 (R.re_not_finite _ _ _ _)
  · rfl

theorem mul_eq' (a b : CFP f R)
    (h : (⟨a.re * b.re - a.im * b.im, a.re * b.im + a.im * b.re⟩ : CFP f R).Finite) :
    a * b = ⟨a.re * b.re - a.im * b.im, a.re * b.im + a.im * b.re⟩ := by
  refine if_neg ?_
  rintro ⟨h1, -⟩
  have := h.1
  change (a.re * b.re - a.im * b.im : FP f).Finite at this
  rw [h1] at this
  exact this

theorem valid_of_not_finite {a : FP f} (h : ¬ a.Finite) : a.Valid := by
  cases a <;> first | trivial | exact absurd trivial h

theorem sub_valid (a b : FP f) : (a - b).Valid := FP.add_valid a (FP.neg b)

theorem mul_valid (a b : CFP f R) : (a * b).Valid := by
  change (mul a b).Valid
  unfold mul
  split_ifs
  · exact ⟨valid_of_not_finite (R.re_not_finite _ _ _ _), valid_of_not_finite (R.im_not_finite _ _ _ _)⟩
  · exact ⟨sub_valid _ _, FP.add_valid _ _⟩

/-- `Accurate`, with what is needed to go on computing. -/
structure Acc (u : ℝ) (m : ℕ) (z : ℝ) (I : Prop) (r : CFP f R) (e : ℂ) (w : ℝ) : Prop
    extends Accurate u m z I r e w where
  valid : r.Valid
  abs_le : size e ≤ w
  z_nonneg : 0 ≤ z

theorem Acc.congr {m : ℕ} {z z' : ℝ} {I I' : Prop} {r : CFP f R} {e e' : ℂ} {w w' : ℝ}
    (c : Acc u m z I r e w) (hI : I' ↔ I) (he : e' = e) (hw : w' = w) (hz : z' = z) :
    Acc u m z' I' r e' w' := by
  subst he hw hz
  exact ⟨⟨fun h => ⟨hI.2 (c.error h).1, (c.error h).2⟩, fun h => c.finite (hI.1 h)⟩,
    c.valid, c.abs_le, c.z_nonneg⟩

theorem Acc.mono {m n : ℕ} {z : ℝ} {I : Prop} {r : CFP f R} {e : ℂ} {w : ℝ} (hu : 0 ≤ u) (hmn : m ≤ n)
    (c : Acc u m z I r e w) : Acc u n z I r e w := by
  have h1 : (1 + u) ^ m ≤ (1 + u) ^ n := pow_le_pow_right₀ (by linarith) hmn
  have hw : 0 ≤ w := (size_nonneg e).trans c.abs_le
  have hz := c.z_nonneg
  refine ⟨⟨fun h => ⟨(c.error h).1, (c.error h).2.trans ?_⟩, fun h hb => c.finite h (hb.trans' ?_)⟩,
    c.valid, c.abs_le, hz⟩
  · have := mul_le_mul_of_nonneg_right h1 hw
    have := mul_le_mul_of_nonneg_right h1 hz
    linarith
  · exact mul_le_mul_of_nonneg_right h1 (by linarith)

theorem Acc.mono_z {m : ℕ} {z z' : ℝ} {I : Prop} {r : CFP f R} {e : ℂ} {w : ℝ} (hu : 0 ≤ u)
    (h : z ≤ z') (c : Acc u m z I r e w) : Acc u m z' I r e w := by
  have h1 : 0 ≤ (1 + u) ^ m := by positivity
  have h2 := mul_le_mul_of_nonneg_left h h1
  refine ⟨⟨fun h => ⟨(c.error h).1, (c.error h).2.trans ?_⟩, fun h hb => c.finite h (hb.trans' ?_)⟩,
    c.valid, c.abs_le, c.z_nonneg.trans h⟩
  · linarith
  · linarith [mul_add ((1 + u) ^ m) w z, mul_add ((1 + u) ^ m) w z']

/-- An input. -/
theorem acc_input {a : CFP f R} (hu : 0 ≤ u) (m : ℕ) (ha : a.Valid) :
    Acc u m 0 a.Finite a a.val (size a.val) := by
  have h1 : 1 ≤ (1 + u) ^ m := one_le_pow₀ (by linarith)
  have := mul_nonneg (sub_nonneg.2 h1) (size_nonneg a.val)
  refine ⟨⟨fun h => ⟨h, ?_⟩, fun h _ => h⟩, ha, le_rfl, le_rfl⟩
  rw [sub_self, size_zero]
  linarith

theorem add_real {u P z z' w w' : ℝ} {x y e e' S : ℂ} (hu : 0 ≤ u)
    (hx : size (x - e) ≤ (P - 1) * w + P * z) (hy : size (y - e') ≤ (P - 1) * w' + P * z')
    (he : size e ≤ w) (he' : size e' ≤ w') (hS : size (S - (x + y)) ≤ u * size (x + y)) :
    size (x + y) ≤ P * (w + w') + P * (z + z') ∧
    size (S - (e + e')) ≤ ((1 + u) * P - 1) * (w + w') + (1 + u) * P * (z + z') := by
  have h1 : size (x + y) ≤ P * (w + w') + P * (z + z') := by
    calc size (x + y) = size ((x - e) + (y - e') + e + e') := by congr 1; ring
      _ ≤ size ((x - e) + (y - e') + e) + size e' := size_add_le _ _
      _ ≤ size ((x - e) + (y - e')) + size e + size e' := by linarith [size_add_le ((x - e) + (y - e')) e]
      _ ≤ size (x - e) + size (y - e') + size e + size e' := by linarith [size_add_le (x - e) (y - e')]
      _ ≤ P * (w + w') + P * (z + z') := by linarith
  refine ⟨h1, ?_⟩
  have h2 := mul_le_mul_of_nonneg_left h1 hu
  calc size (S - (e + e')) = size ((S - (x + y)) + ((x - e) + (y - e'))) := by congr 1; ring
    _ ≤ size (S - (x + y)) + size ((x - e) + (y - e')) := size_add_le _ _
    _ ≤ size (S - (x + y)) + (size (x - e) + size (y - e')) := by linarith [size_add_le (x - e) (y - e')]
    _ ≤ _ := by linarith

/-- A sum. -/
theorem Acc.add (E : f.Errors u η) {m : ℕ} {z z' : ℝ} {I I' : Prop} {a b : CFP f R} {e e' : ℂ}
    {w w' : ℝ} (c : Acc u m z I a e w) (c' : Acc u m z' I' b e' w') :
    Acc u (m + 1) (z + z') (I ∧ I') (a + b) (e + e') (w + w') := by
  have hu := E.u_nonneg
  have hw : 0 ≤ w := (size_nonneg e).trans c.abs_le
  have hw' : 0 ≤ w' := (size_nonneg e').trans c'.abs_le
  have hz := c.z_nonneg
  have hz' := c'.z_nonneg
  have hP : (1 : ℝ) ≤ (1 + u) ^ m := one_le_pow₀ (by linarith)
  have part : ∀ {p q : FP f}, p.Valid → q.Valid → p.Finite → q.Finite →
      p + q = FP.ofReal f (p.val + q.val) ∧
      |f.rnd (p.val + q.val) - (p.val + q.val)| ≤ u * |p.val + q.val| := by
    intro p q vp vq hp hq
    rw [hp.eq] at vp
    rw [hq.eq] at vq
    refine ⟨?_, E.err_add _ _ vp.1 vq.1⟩
    conv_lhs => rw [hp.eq, hq.eq]
    rfl
  have key : a.Finite → b.Finite →
      size (a.val + b.val) ≤ (1 + u) ^ m * (w + w') + (1 + u) ^ m * (z + z') ∧
      size ((⟨f.rnd (a.re.val + b.re.val), f.rnd (a.im.val + b.im.val)⟩ : ℂ) - (e + e')) ≤
        ((1 + u) * (1 + u) ^ m - 1) * (w + w') + (1 + u) * (1 + u) ^ m * (z + z') := by
    intro ha hb
    refine add_real hu (c.error ha).2 (c'.error hb).2 c.abs_le c'.abs_le ?_
    have h1 := (part c.valid.1 c'.valid.1 ha.1 hb.1).2
    have h2 := (part c.valid.2 c'.valid.2 ha.2 hb.2).2
    change |f.rnd (a.re.val + b.re.val) - (a.re.val + b.re.val)| +
      |f.rnd (a.im.val + b.im.val) - (a.im.val + b.im.val)| ≤
      u * (|a.re.val + b.re.val| + |a.im.val + b.im.val|)
    linarith
  refine ⟨⟨fun h => ?_, fun hI hbig => ?_⟩, ⟨FP.add_valid _ _, FP.add_valid _ _⟩, (size_add_le _ _).trans
    (add_le_add c.abs_le c'.abs_le), by linarith⟩
  · have h' : (a.re + b.re : FP f).Finite ∧ (a.im + b.im : FP f).Finite := h
    obtain ⟨ha1, hb1⟩ := FP.finite_add h'.1
    obtain ⟨ha2, hb2⟩ := FP.finite_add h'.2
    refine ⟨⟨(c.error ⟨ha1, ha2⟩).1, (c'.error ⟨hb1, hb2⟩).1⟩, ?_⟩
    rw [(part c.valid.1 c'.valid.1 ha1 hb1).1, (part c.valid.2 c'.valid.2 ha2 hb2).1] at h'
    rw [show (a + b).val = (⟨f.rnd (a.re.val + b.re.val), f.rnd (a.im.val + b.im.val)⟩ : ℂ) by
      rw [← FP.ofReal_val h'.1, ← FP.ofReal_val h'.2, ← (part c.valid.1 c'.valid.1 ha1 hb1).1,
        ← (part c.valid.2 c'.valid.2 ha2 hb2).1]
      rfl, pow_succ']
    exact (key ⟨ha1, ha2⟩ ⟨hb1, hb2⟩).2
  · rw [pow_succ'] at hbig
    have hP0 : 0 ≤ (1 + u) ^ m := by linarith
    have hle : (1 + u) ^ m * (w + w' + (z + z')) ≤ f.big := by
      refine hbig.trans' (mul_le_mul_of_nonneg_right ?_ (by linarith))
      nlinarith
    have ha := c.finite hI.1 (hle.trans' (mul_le_mul_of_nonneg_left (by linarith) hP0))
    have hb := c'.finite hI.2 (hle.trans' (mul_le_mul_of_nonneg_left (by linarith) hP0))
    have hs := (key ha hb).1
    change |a.re.val + b.re.val| + |a.im.val + b.im.val| ≤ _ at hs
    have p1 := part c.valid.1 c'.valid.1 ha.1 hb.1
    have p2 := part c.valid.2 c'.valid.2 ha.2 hb.2
    constructor
    · change (a.re + b.re : FP f).Finite
      rw [p1.1]
      refine FP.ofReal_finite ((FP.rnd_le (le_trans ?_ hs) p1.2 hu).trans (hbig.trans' (le_of_eq ?_)))
      · linarith [abs_nonneg (a.im.val + b.im.val)]
      · ring
    · change (a.im + b.im : FP f).Finite
      rw [p2.1]
      refine FP.ofReal_finite ((FP.rnd_le (le_trans ?_ hs) p2.2 hu).trans (hbig.trans' (le_of_eq ?_)))
      · linarith [abs_nonneg (a.re.val + b.re.val)]
      · ring

/-- The negative of a number. -/
noncomputable def neg (a : CFP f R) : CFP f R := ⟨FP.neg a.re, FP.neg a.im⟩

theorem finite_neg {a : CFP f R} : (neg a).Finite ↔ a.Finite := and_congr FP.finite_neg FP.finite_neg

theorem val_neg (a : CFP f R) : (neg a).val = -a.val := by
  apply Complex.ext
  · exact FP.val_neg a.re
  · exact FP.val_neg a.im

theorem Acc.neg (E : f.Errors u η) {m : ℕ} {z : ℝ} {I : Prop} {a : CFP f R} {e : ℂ} {w : ℝ}
    (c : Acc u m z I a e w) : Acc u m z I (neg a) (-e) w :=
  ⟨⟨fun h => by
      have := c.error (finite_neg.1 h)
      refine ⟨this.1, ?_⟩
      rw [val_neg, show -a.val - -e = -(a.val - e) by ring, size_neg]
      exact this.2,
    fun hI hb => finite_neg.2 (c.finite hI hb)⟩, ⟨c.valid.1.neg E, c.valid.2.neg E⟩,
    by rw [size_neg]; exact c.abs_le, c.z_nonneg⟩

/-- A difference. -/
theorem Acc.sub (E : f.Errors u η) {m : ℕ} {z z' : ℝ} {I I' : Prop} {a b : CFP f R} {e e' : ℂ}
    {w w' : ℝ} (c : Acc u m z I a e w) (c' : Acc u m z' I' b e' w') :
    Acc u (m + 1) (z + z') (I ∧ I') (a - b) (e - e') (w + w') := by
  have := c.add E (c'.neg E)
  rw [← sub_eq_add_neg] at this
  exact this

/-- The two parts of a number. -/
theorem acc_parts {m : ℕ} {z z' : ℝ} {I : Prop} {p q : FP f} {e : ℂ} {w w' : ℝ} (hu : 0 ≤ u)
    (c : FP.Acc u m z I p e.re w) (c' : FP.Acc u m z' I q e.im w') :
    Acc u m (z + z') I (⟨p, q⟩ : CFP f R) e (w + w') := by
  have hP : 0 ≤ (1 + u) ^ m := by positivity
  have hw : 0 ≤ w := (abs_nonneg _).trans c.abs_le
  have hw' : 0 ≤ w' := (abs_nonneg _).trans c'.abs_le
  have hz := c.z_nonneg
  have hz' := c'.z_nonneg
  refine ⟨⟨fun h => ⟨(c.error h.1).1, ?_⟩, fun hI hb => ⟨c.finite hI (hb.trans' ?_), c'.finite hI (hb.trans' ?_)⟩⟩,
    ⟨c.valid, c'.valid⟩, add_le_add c.abs_le c'.abs_le, add_nonneg c.z_nonneg c'.z_nonneg⟩
  · have h1 := (c.error h.1).2
    have h2 := (c'.error h.2).2
    change |p.val - e.re| + |q.val - e.im| ≤ _
    linarith
  · exact mul_le_mul_of_nonneg_left (by linarith) hP
  · exact mul_le_mul_of_nonneg_left (by linarith) hP

/-- A product of inputs. -/
theorem acc_mul (E : f.Errors u η) (a b : CFP f R) :
    Acc u 2 (4 * η) (a.Finite ∧ b.Finite) (a * b) (a.val * b.val) (size a.val * size b.val) := by
  have c := acc_parts (R := R) (e := a.val * b.val) E.u_nonneg
    (((FP.acc_mul E a.re b.re).sub E (FP.acc_mul E a.im b.im)).congr (I' := a.Finite ∧ b.Finite)
      ⟨fun h => ⟨⟨h.1.1, h.2.1⟩, h.1.2, h.2.2⟩, fun h => ⟨⟨h.1.1, h.2.1⟩, h.1.2, h.2.2⟩⟩
      (Complex.mul_re _ _) rfl rfl)
    (((FP.acc_mul E a.re b.im).add E (FP.acc_mul E a.im b.re)).congr (I' := a.Finite ∧ b.Finite)
      ⟨fun h => ⟨⟨h.1.1, h.2.2⟩, h.1.2, h.2.1⟩, fun h => ⟨⟨h.1.1, h.2.1⟩, h.2.2, h.1.2⟩⟩
      (Complex.mul_im _ _) rfl rfl)
  have c' := c.congr Iff.rfl rfl (w' := size a.val * size b.val)
    (show _ = (|a.re.val| * |b.re.val| + |a.im.val| * |b.im.val| +
      (|a.re.val| * |b.im.val| + |a.im.val| * |b.re.val|)) by simp only [size, val]; ring)
    (show 4 * η = _ by ring)
  refine ⟨⟨fun h => ?_, fun hI hb => ?_⟩, mul_valid a b, c'.abs_le, c'.z_nonneg⟩
  · have e := mul_eq a b h
    rw [e] at h ⊢
    exact c'.error h
  · have := c'.finite hI hb
    rwa [mul_eq' a b this]

/-- A computed number times an input.  The computed number has to be finite by itself: a small input
can hide that it is too large. -/
theorem Acc.mul_input (E : f.Errors u η) {m : ℕ} {z : ℝ} {I : Prop} {a b : CFP f R} {e : ℂ} {w : ℝ}
    (c : Acc u m z I a e w) :
    Acc u (m + 2) (z * size b.val + 4 * η) (a.Finite ∧ b.Finite) (a * b) (e * b.val) (w * size b.val) := by
  have hu := E.u_nonneg
  have hη := E.eta_nonneg
  have hz := c.z_nonneg
  have hy := size_nonneg b.val
  have hP : (1 : ℝ) ≤ (1 + u) ^ m := one_le_pow₀ (by linarith)
  have hQ : (1 : ℝ) ≤ (1 + u) ^ 2 := one_le_pow₀ (by linarith)
  have d := acc_mul E a b
  have hsum : a.Finite → size a.val ≤ (1 + u) ^ m * (w + z) := by
    intro ha
    have h1 := size_add_le (a.val - e) e
    rw [sub_add_cancel] at h1
    have := (c.error ha).2
    have := c.abs_le
    linarith
  have hle : a.Finite → size a.val * size b.val ≤ (1 + u) ^ m * (w + z) * size b.val := fun ha =>
    mul_le_mul_of_nonneg_right (hsum ha) hy
  have hη4 : 4 * η ≤ (1 + u) ^ m * (4 * η) := le_mul_of_one_le_left (by linarith) hP
  refine ⟨⟨fun h => ?_, fun hI hbig => d.finite hI (hbig.trans' ?_)⟩, mul_valid a b, ?_, ?_⟩
  · obtain ⟨hI, hd⟩ := d.error h
    refine ⟨hI, ?_⟩
    have h1 : size ((a.val - e) * b.val) ≤ (((1 + u) ^ m - 1) * w + (1 + u) ^ m * z) * size b.val :=
      (size_mul_le _ _).trans (mul_le_mul_of_nonneg_right (c.error hI.1).2 hy)
    have h2 := mul_le_mul_of_nonneg_left (hle hI.1) (sub_nonneg.2 hQ)
    have h3 := mul_le_mul_of_nonneg_left hη4 (show (0 : ℝ) ≤ (1 + u) ^ 2 by linarith)
    rw [pow_add]
    calc size ((a * b).val - e * b.val) = size (((a * b).val - a.val * b.val) + (a.val - e) * b.val) := by
          congr 1; ring
      _ ≤ size ((a * b).val - a.val * b.val) + size ((a.val - e) * b.val) := size_add_le _ _
      _ ≤ _ := by linarith
  · have h2 := hle hI.1
    rw [pow_add, mul_comm ((1 + u) ^ m), mul_assoc]
    refine mul_le_mul_of_nonneg_left ?_ (by linarith)
    linarith
  · exact (size_mul_le _ _).trans (mul_le_mul_of_nonneg_right c.abs_le hy)
  · have := mul_nonneg hz hy; linarith

theorem acc_mul_conj (E : f.Errors u η) (a b : CFP f R) :
    Acc u 2 (4 * η) (a.Finite ∧ b.Finite) (a * ConjOps.conj b) (a.val * (starRingEnd ℂ) b.val)
      (size a.val * size b.val) :=
  (acc_mul E a (ConjOps.conj b)).congr (and_congr Iff.rfl finite_conj.symm) (by rw [val_conj])
    (by rw [val_conj, size_conj]) rfl

theorem acc_conj_mul (E : f.Errors u η) (a b : CFP f R) :
    Acc u 2 (4 * η) (a.Finite ∧ b.Finite) (ConjOps.conj a * b) ((starRingEnd ℂ) a.val * b.val)
      (size a.val * size b.val) :=
  (acc_mul E (ConjOps.conj a) b).congr (and_congr finite_conj.symm Iff.rfl) (by rw [val_conj])
    (by rw [val_conj, size_conj]) rfl

theorem Acc.mul_input_conj (E : f.Errors u η) {m : ℕ} {z : ℝ} {I : Prop} {a b : CFP f R} {e : ℂ} {w : ℝ}
    (c : Acc u m z I a e w) :
    Acc u (m + 2) (z * size b.val + 4 * η) (a.Finite ∧ b.Finite) (a * ConjOps.conj b)
      (e * (starRingEnd ℂ) b.val) (w * size b.val) :=
  (c.mul_input E (b := ConjOps.conj b)).congr (and_congr Iff.rfl finite_conj.symm) (by rw [val_conj])
    (by rw [val_conj, size_conj]) (by rw [val_conj, size_conj])

theorem realDiag_valid {a : ℕ → ℕ → CFP f R} {i j : ℕ} (h : (a i j).Valid) : (realDiag a i j).Valid := by
  unfold realDiag
  split_ifs with e
  · subst e; exact re_valid h
  · exact h

theorem four_eta (E : f.Errors u η) : 0 ≤ 4 * η := by linarith [E.eta_nonneg]

/-- `Acc` of every term of an index range: the hypothesis on the inputs. -/
theorem Acc.leftSum (E : f.Errors u η) {m n : ℕ} {s : CFP f R} {t : ℕ → CFP f R} {S : ℂ} {M z : ℝ} {I : Prop}
    {e : ℕ → ℂ} {w y : ℕ → ℝ} {J : ℕ → Prop} (c : Acc u m z I s S M)
    (ct : ∀ k, k < n → Acc u m (y k) (J k) (t k) (e k) (w k)) :
    Acc u (m + n) (z + ∑ k ∈ range n, y k) (I ∧ ∀ k, k < n → J k) (leftSum s n t)
      (S + ∑ k ∈ range n, e k) (M + ∑ k ∈ range n, w k) := by
  induction n with
  | zero => simpa [StdBLAS.leftSum] using c
  | succ n ih =>
    rw [sum_range_succ, sum_range_succ, sum_range_succ, ← add_assoc, ← add_assoc, ← add_assoc,
      ← add_assoc]
    refine ((ih fun k hk => ct k (by omega)).add E
      ((ct n (by omega)).mono E.u_nonneg (by omega))).congr ?_ rfl rfl rfl
    constructor
    · exact fun h => ⟨⟨h.1, fun k hk => h.2 k (by omega)⟩, h.2 n (by omega)⟩
    · refine fun h => ⟨h.1.1, fun k hk => ?_⟩
      rcases Nat.lt_succ_iff_lt_or_eq.1 hk with hk | rfl
      · exact h.1.2 k hk
      · exact h.2

theorem Acc.leftDiff (E : f.Errors u η) {m n : ℕ} {s : CFP f R} {t : ℕ → CFP f R} {S : ℂ} {M z : ℝ} {I : Prop}
    {e : ℕ → ℂ} {w y : ℕ → ℝ} {J : ℕ → Prop} (c : Acc u m z I s S M)
    (ct : ∀ k, k < n → Acc u m (y k) (J k) (t k) (e k) (w k)) :
    Acc u (m + n) (z + ∑ k ∈ range n, y k) (I ∧ ∀ k, k < n → J k) (leftDiff s n t)
      (S - ∑ k ∈ range n, e k) (M + ∑ k ∈ range n, w k) := by
  induction n with
  | zero => simpa [StdBLAS.leftDiff] using c
  | succ n ih =>
    rw [sum_range_succ, sum_range_succ, sum_range_succ, ← sub_sub, ← add_assoc, ← add_assoc,
      ← add_assoc]
    refine ((ih fun k hk => ct k (by omega)).sub E
      ((ct n (by omega)).mono E.u_nonneg (by omega))).congr ?_ rfl rfl rfl
    constructor
    · exact fun h => ⟨⟨h.1, fun k hk => h.2 k (by omega)⟩, h.2 n (by omega)⟩
    · refine fun h => ⟨h.1.1, fun k hk => ?_⟩
      rcases Nat.lt_succ_iff_lt_or_eq.1 hk with hk | rfl
      · exact h.1.2 k hk
      · exact h.2

/-- A sum of `n` products of inputs. -/
theorem acc_products (E : f.Errors u η) (n : ℕ) (x y : ℕ → CFP f R) {s : CFP f R} (hs : s.Valid) :
    Acc u (n + 2) (n * (4 * η)) (s.Finite ∧ ∀ k, k < n → (x k).Finite ∧ (y k).Finite)
      (StdBLAS.leftSum s n fun k => x k * y k)
      (s.val + ∑ k ∈ range n, (x k).val * (y k).val)
      (size s.val + ∑ k ∈ range n, size (x k).val * size (y k).val) := by
  have := Acc.leftSum E (acc_input E.u_nonneg 2 hs) (n := n) fun k _ => acc_mul E (x k) (y k)
  rw [Nat.add_comm]
  exact this.congr Iff.rfl rfl rfl (by simp)

/-- A sum of `n` products of inputs, from zero. -/
theorem acc_products_zero (E : f.Errors u η) (n : ℕ) (x y : ℕ → CFP f R) :
    Acc u (n + 2) (n * (4 * η)) (∀ k, k < n → (x k).Finite ∧ (y k).Finite)
      (StdBLAS.leftSum 0 n fun k => x k * y k)
      (∑ k ∈ range n, (x k).val * (y k).val) (∑ k ∈ range n, size (x k).val * size (y k).val) :=
  (acc_products E n x y zero_valid).congr ⟨fun h => ⟨zero_finite, h⟩, fun h => h.2⟩
    (zero_add _).symm (by
      rw [show (0 : CFP f R).val = 0 from rfl, size_zero, zero_add]) rfl

/-! ## Triangular matrices -/

section Tri
variable {t : Triangle} {d : Diag} {a : ℕ → ℕ → CFP f R} {x : ℕ → CFP f R}

/-- A term of a row of a triangular product. -/
theorem acc_term (E : f.Errors u η) {r c : ℕ} (hx : (x c).Valid) (q : t.region r c) {v : CFP f R}
    (hv : v = if d = .implicitUnit ∧ c = r then x c else a r c * x c) :
    Acc u 2 (4 * η) ((x c).Finite ∧ (triRegion t d r c → (a r c).Finite)) v
      (triOf t d (fun i j => (a i j).val) r c * (x c).val)
      (size (triOf t d (fun i j => (a i j).val) r c) * size (x c).val) := by
  subst hv
  by_cases e : d = .implicitUnit ∧ c = r
  · obtain ⟨rfl, rfl⟩ := e
    rw [if_pos ⟨rfl, rfl⟩, triOf_diag]
    refine ((acc_input E.u_nonneg 2 hx).mono_z E.u_nonneg (four_eta E)).congr ?_
      (one_mul _) (by rw [size_one, one_mul]) rfl
    exact ⟨fun h => h.1, fun h => ⟨h, fun q' => absurd rfl (q'.2 rfl)⟩⟩
  · rw [if_neg e]
    have hr : triRegion t d r c := ⟨q, fun hd hrc => e ⟨hd, hrc.symm⟩⟩
    have ht : triOf t d (fun i j => (a i j).val) r c = (a r c).val := by
      by_cases hrc : r = c
      · subst hrc
        rw [triOf_diag]
        cases d
        · exact absurd ⟨rfl, rfl⟩ e
        · rfl
      · exact triOf_inside hrc q
    rw [ht]
    exact (acc_mul E (a r c) (x c)).congr ⟨fun h => ⟨h.2 hr, h.1⟩, fun h => ⟨h.2, fun _ => h.1⟩⟩ rfl rfl rfl

/-- The same with the factors in the other order. -/
theorem acc_term_right (E : f.Errors u η) {r c : ℕ} (hx : (x r).Valid) (q : t.region r c) {v : CFP f R}
    (hv : v = if d = .implicitUnit ∧ r = c then x r else x r * a r c) :
    Acc u 2 (4 * η) ((x r).Finite ∧ (triRegion t d r c → (a r c).Finite)) v
      ((x r).val * triOf t d (fun i j => (a i j).val) r c)
      (size (x r).val * size (triOf t d (fun i j => (a i j).val) r c)) := by
  subst hv
  by_cases e : d = .implicitUnit ∧ r = c
  · obtain ⟨rfl, rfl⟩ := e
    rw [if_pos ⟨rfl, rfl⟩, triOf_diag]
    refine ((acc_input E.u_nonneg 2 hx).mono_z E.u_nonneg (four_eta E)).congr ?_
      (mul_one _) (by rw [size_one, mul_one]) rfl
    exact ⟨fun h => h.1, fun h => ⟨h, fun q' => absurd rfl (q'.2 rfl)⟩⟩
  · rw [if_neg e]
    have hr : triRegion t d r c := ⟨q, fun hd hrc => e ⟨hd, hrc⟩⟩
    have ht : triOf t d (fun i j => (a i j).val) r c = (a r c).val := by
      by_cases hrc : r = c
      · subst hrc
        rw [triOf_diag]
        cases d
        · exact absurd ⟨rfl, rfl⟩ e
        · rfl
      · exact triOf_inside hrc q
    rw [ht]
    exact (acc_mul E (x r) (a r c)).congr ⟨fun h => ⟨h.1, h.2 hr⟩, fun h => ⟨h.1, fun _ => h.2⟩⟩ rfl rfl rfl

theorem card_le {n m : ℕ} (E : f.Errors u η) (h : m ≤ n) : 0 + ∑ _k ∈ range m, (4 * η) ≤ n * (4 * η) := by
  rw [zero_add, sum_const, card_range, nsmul_eq_mul]
  exact mul_le_mul_of_nonneg_right (by exact_mod_cast h) (four_eta E)

/-- A sum over a row that stops at, or starts from, the diagonal. -/
theorem acc_row (E : f.Errors u η) {before : Bool} {n i : ℕ} (hi : i < n) {s : CFP f R} (hs : s.Valid)
    {v : ℕ → CFP f R} {e : ℕ → ℂ} {w : ℕ → ℝ} {J : ℕ → Prop}
    (hin : ∀ k, k < n → (if before then k ≤ i else i ≤ k) → Acc u 2 (4 * η) (J k) (v k) (e k) (w k))
    (hout : ∀ k, k < n → ¬ (if before then k ≤ i else i ≤ k) → e k = 0 ∧ w k = 0) :
    Acc u (n + 2) (n * (4 * η)) (s.Finite ∧ ∀ k, k < n → (if before then k ≤ i else i ≤ k) → J k)
      (if before then StdBLAS.leftSum s (i + 1) v else StdBLAS.leftSum s (n - i) fun k => v (i + k))
      (s.val + ∑ k ∈ range n, e k) (size s.val + ∑ k ∈ range n, w k) := by
  cases before with
  | true =>
    simp only [if_true] at *
    rw [sum_lower hi _ fun k hk h => (hout k hk (by omega)).1,
      sum_lower hi _ fun k hk h => (hout k hk (by omega)).2]
    refine Acc.mono E.u_nonneg (m := 2 + (i + 1)) (by omega) (Acc.mono_z E.u_nonneg
      (card_le E (m := i + 1) (by omega)) ((Acc.leftSum E (acc_input E.u_nonneg 2 hs) fun k hk =>
        hin k (by omega) (by omega)).congr ?_ rfl rfl rfl))
    exact ⟨fun h => ⟨h.1, fun k hk => h.2 k (by omega) (by omega)⟩,
      fun h => ⟨h.1, fun k hk hki => h.2 k (by omega)⟩⟩
  | false =>
    simp only [Bool.false_eq_true, if_false] at *
    rw [sum_upper hi _ fun k hk => (hout k (by omega) (by omega)).1,
      sum_upper hi _ fun k hk => (hout k (by omega) (by omega)).2]
    refine Acc.mono E.u_nonneg (m := 2 + (n - i)) (by omega) (Acc.mono_z E.u_nonneg
      (card_le E (m := n - i) (by omega)) ((Acc.leftSum E (acc_input E.u_nonneg 2 hs) fun k hk =>
        hin (i + k) (by omega) (by omega)).congr ?_ rfl rfl rfl))
    refine ⟨fun h => ⟨h.1, fun k hk => h.2 _ (by omega) (by omega)⟩,
      fun h => ⟨h.1, fun k hk hki => ?_⟩⟩
    have := h.2 (k - i) (by omega)
    rwa [show i + (k - i) = k by omega] at this

theorem acc_triSeq (E : f.Errors u η) (t : Triangle) (d : Diag) {n : ℕ} (a : ℕ → ℕ → CFP f R)
    (x : ℕ → CFP f R) (hx : ∀ k, k < n → (x k).Valid) {s : CFP f R} (hs : s.Valid) {r : ℕ} (hr : r < n) :
    Acc u (n + 2) (n * (4 * η))
      (s.Finite ∧ ∀ k, k < n → t.region r k → (x k).Finite ∧ (triRegion t d r k → (a r k).Finite))
      (triSeq t d n a x s r)
      (s.val + ∑ k ∈ range n, triOf t d (fun i j => (a i j).val) r k * (x k).val)
      (size s.val + ∑ k ∈ range n, size (triOf t d (fun i j => (a i j).val) r k) * size (x k).val) := by
  have hterm : ∀ k, triTerm d a x r k = if d = .implicitUnit ∧ k = r then x k else a r k * x k := by
    intro k
    unfold triTerm
    by_cases h : d = .implicitUnit ∧ k = r
    · rw [if_pos h, if_pos h, h.2]
    · rw [if_neg h, if_neg h]
  have hout : ∀ k, ¬ t.region r k →
      triOf t d (fun i j => (a i j).val) r k * (x k).val = 0 ∧
      size (triOf t d (fun i j => (a i j).val) r k) * size (x k).val = 0 := by
    intro k hk
    rw [triOf_outside (by rintro rfl; exact hk (by cases t <;> exact le_refl r)) hk]
    simp [size_zero]
  cases t with
  | lower =>
    exact acc_row E (before := true) hr hs (v := fun k => triTerm d a x r k)
      (fun k hk q => acc_term E (t := .lower) (d := d) (a := a) (hx k hk) q (hterm k))
      (fun k _ q => hout k q)
  | upper =>
    exact acc_row E (before := false) hr hs (v := fun k => triTerm d a x r k)
      (fun k hk q => acc_term E (t := .upper) (d := d) (a := a) (hx k hk)
        (show r ≤ k by simpa using q) (hterm k))
      (fun k _ q => hout k (show ¬ r ≤ k by simpa using q))

/-- The in-place product: the diagonal term first, then the strict triangle, by increasing distance
from the diagonal. -/
theorem acc_inPlace (E : f.Errors u η) {before : Bool} {n i : ℕ} (hi : i < n) {s : CFP f R}
    {v : ℕ → CFP f R} {e : ℕ → ℂ} {w : ℕ → ℝ} {J : ℕ → Prop} (hs : Acc u 2 (4 * η) (J i) s (e i) (w i))
    (hin : ∀ k, k < n → (if before then k < i else i < k) → Acc u 2 (4 * η) (J k) (v k) (e k) (w k))
    (hout : ∀ k, k < n → ¬ (if before then k ≤ i else i ≤ k) → e k = 0 ∧ w k = 0) :
    Acc u (n + 1) (n * (4 * η)) (∀ k, k < n → (if before then k ≤ i else i ≤ k) → J k)
      (if before then StdBLAS.leftSum s i fun k => v (i - 1 - k)
        else StdBLAS.leftSum s (n - 1 - i) fun k => v (i + 1 + k))
      (∑ k ∈ range n, e k) (∑ k ∈ range n, w k) := by
  have hz : ∀ m, m + 1 ≤ n → (4 * η) + ∑ _k ∈ range m, (4 * η) ≤ n * (4 * η) := by
    intro m hm
    have := card_le E (m := m + 1) hm
    rw [sum_range_succ] at this
    linarith
  cases before with
  | true =>
    simp only [if_true] at *
    rw [sum_lower hi _ fun k hk h => (hout k hk (by omega)).1,
      sum_lower hi _ fun k hk h => (hout k hk (by omega)).2, sum_range_succ, sum_range_succ,
      add_comm (∑ x ∈ range i, e x), add_comm (∑ x ∈ range i, w x), ← sum_range_reflect e i,
      ← sum_range_reflect w i]
    refine Acc.mono E.u_nonneg (m := 2 + i) (by omega) (Acc.mono_z E.u_nonneg
      (hz i (by omega)) ((Acc.leftSum E hs (J := fun k => J (i - 1 - k)) fun k hk =>
        hin (i - 1 - k) (by omega) (by omega)).congr ?_ rfl rfl rfl))
    refine ⟨fun h => ⟨h i hi le_rfl, fun k hk => h _ (by omega) (by omega)⟩,
      fun h k hk hki => ?_⟩
    rcases hki.lt_or_eq with hki | rfl
    · have := h.2 (i - 1 - k) (by omega)
      rwa [show i - 1 - (i - 1 - k) = k by omega] at this
    · exact h.1
  | false =>
    simp only [Bool.false_eq_true, if_false] at *
    rw [sum_upper' hi _ fun k hk => (hout k (by omega) (by omega)).1,
      sum_upper' hi _ fun k hk => (hout k (by omega) (by omega)).2]
    refine Acc.mono E.u_nonneg (m := 2 + (n - 1 - i)) (by omega) (Acc.mono_z E.u_nonneg
      (hz (n - 1 - i) (by omega)) ((Acc.leftSum E hs (J := fun k => J (i + 1 + k)) fun k hk =>
        hin (i + 1 + k) (by omega) (by omega)).congr ?_ rfl rfl rfl))
    refine ⟨fun h => ⟨h i hi le_rfl, fun k hk => h _ (by omega) (by omega)⟩,
      fun h k hk hki => ?_⟩
    rcases hki.lt_or_eq with hki | rfl
    · have := h.2 (k - i - 1) (by omega)
      rwa [show i + 1 + (k - i - 1) = k by omega] at this
    · exact h.1

/-- An element of a product with a triangular matrix. -/
theorem acc_triElement (E : f.Errors u η) {before : Bool} {d : Diag} {n i : ℕ} (hi : i < n)
    {s diag : CFP f R} (hs : s.Valid) {v : ℕ → CFP f R} {e : ℕ → ℂ} {w : ℕ → ℝ} {J : ℕ → Prop}
    (hd : Acc u 2 (4 * η) (J i) diag (e i) (w i))
    (hin : ∀ k, k < n → (if before then k < i else i < k) → Acc u 2 (4 * η) (J k) (v k) (e k) (w k))
    (hout : ∀ k, k < n → ¬ (if before then k ≤ i else i ≤ k) → e k = 0 ∧ w k = 0) :
    Acc u (n + 2) (n * (4 * η)) (s.Finite ∧ ∀ k, k < n → (if before then k ≤ i else i ≤ k) → J k)
      (triElement before d n i v diag s) (s.val + ∑ k ∈ range n, e k)
      (size s.val + ∑ k ∈ range n, w k) := by
  have hz : ∀ m, m + 1 ≤ n → 0 + ∑ _k ∈ range m, (4 * η) + (4 * η) ≤ n * (4 * η) := by
    intro m hm
    have := card_le E (m := m + 1) hm
    rw [sum_range_succ] at this
    linarith
  have hu := E.u_nonneg
  cases before with
  | true =>
    simp only [if_true] at *
    rw [sum_lower hi _ fun k hk h => (hout k hk (by omega)).1,
      sum_lower hi _ fun k hk h => (hout k hk (by omega)).2, sum_range_succ, sum_range_succ,
      ← add_assoc, ← add_assoc]
    unfold triElement
    refine Acc.mono hu (m := 2 + i + 1) (by omega) (Acc.mono_z hu (hz i (by omega))
      (((Acc.leftSum E (acc_input hu 2 hs) (J := J) fun k hk => hin k (by omega) hk).add E
        (hd.mono hu (by omega))).congr ?_ rfl rfl rfl))
    refine ⟨fun h => ⟨⟨h.1, fun k hk => h.2 k (by omega) (by omega)⟩, h.2 i hi le_rfl⟩,
      fun h => ⟨h.1.1, fun k hk hki => ?_⟩⟩
    rcases hki.lt_or_eq with hki | rfl
    · exact h.1.2 k hki
    · exact h.2
  | false =>
    simp only [Bool.false_eq_true, if_false] at *
    rw [sum_upper' hi _ fun k hk => (hout k (by omega) (by omega)).1,
      sum_upper' hi _ fun k hk => (hout k (by omega) (by omega)).2]
    have conv : ∀ {P : Prop}, (P ∧ (∀ k, k < n → i ≤ k → J k)) ↔
        ((P ∧ J i) ∧ ∀ k, k < n - 1 - i → J (i + 1 + k)) := by
      intro P
      refine ⟨fun h => ⟨⟨h.1, h.2 i hi le_rfl⟩, fun k hk => h.2 _ (by omega) (by omega)⟩,
        fun h => ⟨h.1.1, fun k hk hki => ?_⟩⟩
      rcases hki.lt_or_eq with hki | rfl
      · have := h.2 (k - i - 1) (by omega)
        rwa [show i + 1 + (k - i - 1) = k by omega] at this
      · exact h.1.2
    cases d with
    | explicit =>
      unfold triElement
      rw [← add_assoc, ← add_assoc]
      refine Acc.mono hu (m := 2 + 1 + (n - 1 - i)) (by omega) (Acc.mono_z hu ?_
        ((Acc.leftSum E ((acc_input hu 2 hs).add E hd) (J := fun k => J (i + 1 + k)) fun k hk =>
          (hin (i + 1 + k) (by omega) (by omega)).mono hu (by omega)).congr conv rfl rfl rfl))
      have := hz (n - 1 - i) (by omega)
      linarith
    | implicitUnit =>
      unfold triElement
      rw [add_comm (e i), add_comm (w i), ← add_assoc, ← add_assoc]
      refine Acc.mono hu (m := 2 + (n - 1 - i) + 1) (by omega) (Acc.mono_z hu
        (hz (n - 1 - i) (by omega))
        (((Acc.leftSum E (acc_input hu 2 hs) (J := fun k => J (i + 1 + k)) fun k hk =>
          hin (i + 1 + k) (by omega) (by omega)).add E (hd.mono hu (by omega))).congr ?_ rfl rfl rfl))
      rw [conv]
      exact ⟨fun h => ⟨⟨h.1.1, h.2⟩, h.1.2⟩, fun h => ⟨⟨h.1.1, h.2⟩, h.1.2⟩⟩

/-- A sum that starts from zero. -/
theorem Acc.from_zero {m : ℕ} {z : ℝ} {I : Prop} {r : CFP f R} {e : ℂ} {w : ℝ}
    (c : Acc u m z ((0 : CFP f R).Finite ∧ I) r ((0 : CFP f R).val + e) (size (0 : CFP f R).val + w)) :
    Acc u m z I r e w :=
  c.congr ⟨fun h => ⟨zero_finite, h⟩, fun h => h.2⟩ (zero_add _).symm
    (by rw [show (0 : CFP f R).val = 0 from rfl, size_zero, zero_add]) rfl

theorem diag_term (d : Diag) (r : ℕ) (p q : CFP f R) :
    (if d = .explicit then p else q) = if d = .implicitUnit ∧ r = r then q else p := by
  cases d <;> simp

theorem tri_out {t : Triangle} {d : Diag} {a : ℕ → ℕ → CFP f R} {r k : ℕ} (hk : ¬ t.region r k) :
    triOf t d (fun i j => (a i j).val) r k = 0 :=
  triOf_outside (by rintro rfl; exact hk (by cases t <;> exact le_refl r)) hk

theorem acc_triSeqInPlace (E : f.Errors u η) (t : Triangle) (d : Diag) {n : ℕ} (a : ℕ → ℕ → CFP f R)
    (x : ℕ → CFP f R) (hx : ∀ k, k < n → (x k).Valid) {r : ℕ} (hr : r < n) {s : CFP f R}
    (hs : (s = if d = .explicit then a r r * x r else x r) ∨
      s = if d = .explicit then x r * a r r else x r) :
    Acc u (n + 1) (n * (4 * η))
      (∀ k, k < n → t.region r k → (x k).Finite ∧ (triRegion t d r k → (a r k).Finite))
      (triSeqInPlace t n a x s r)
      (∑ k ∈ range n, triOf t d (fun i j => (a i j).val) r k * (x k).val)
      (∑ k ∈ range n, size (triOf t d (fun i j => (a i j).val) r k) * size (x k).val) := by
  have hrr : t.region r r := by cases t <;> exact le_refl r
  have hd : Acc u 2 (4 * η) ((x r).Finite ∧ (triRegion t d r r → (a r r).Finite)) s
      (triOf t d (fun i j => (a i j).val) r r * (x r).val)
      (size (triOf t d (fun i j => (a i j).val) r r) * size (x r).val) :=
    hs.elim (fun e => acc_term E (hx r hr) hrr (e.trans (diag_term d r _ _)))
      fun e => (acc_term_right E (hx r hr) hrr (e.trans (diag_term d r _ _))).congr Iff.rfl
        (mul_comm _ _) (mul_comm _ _) rfl
  cases t with
  | lower =>
    exact acc_inPlace E (before := true) hr (v := fun k => a r k * x k) hd
      (fun k hk q => by
        have q' : k < r := by simpa using q
        exact acc_term E (t := .lower) (d := d) (a := a) (hx k hk) (show k ≤ r by omega)
          (by rw [if_neg (by omega)]))
      (fun k _ q => by rw [tri_out (t := .lower) q]; simp [size_zero])
  | upper =>
    exact acc_inPlace E (before := false) hr (v := fun k => a r k * x k) hd
      (fun k hk q => by
        have q' : r < k := by simpa using q
        exact acc_term E (t := .upper) (d := d) (a := a) (hx k hk) (show r ≤ k by omega)
          (by rw [if_neg (by omega)]))
      (fun k _ q => by rw [tri_out (t := .upper) (show ¬ r ≤ k by simpa using q)]; simp [size_zero])

theorem acc_triLeft (E : f.Errors u η) (t : Triangle) (d : Diag) {n m : ℕ} (a : ℕ → ℕ → CFP f R)
    (x : ℕ → CFP f R) (hx : ∀ k, k < n → (x k).Valid) (hm : m = n) {r : ℕ} (hr : r < n) :
    Acc u (n + 2) (n * (4 * η))
      (∀ k, k < n → t.region r k → (x k).Finite ∧ (triRegion t d r k → (a r k).Finite))
      (triElement (t = .lower) d m r (fun k => a r k * x k)
        (if d = .explicit then a r r * x r else x r) 0)
      (∑ k ∈ range n, triOf t d (fun i j => (a i j).val) r k * (x k).val)
      (∑ k ∈ range n, size (triOf t d (fun i j => (a i j).val) r k) * size (x k).val) := by
  subst hm
  refine Acc.from_zero ?_
  cases t with
  | lower =>
    exact acc_triElement E (before := true) hr zero_valid
      (acc_term E (t := .lower) (a := a) (hx r hr) (le_refl r) (diag_term d r _ _))
      (fun k hk q => by
        have q' : k < r := by simpa using q
        exact acc_term E (t := .lower) (d := d) (a := a) (hx k hk) (show k ≤ r by omega)
          (by rw [if_neg (by omega)]))
      (fun k _ q => by rw [tri_out (t := .lower) q]; simp [size_zero])
  | upper =>
    exact acc_triElement E (before := false) hr zero_valid
      (acc_term E (t := .upper) (a := a) (hx r hr) (le_refl r) (diag_term d r _ _))
      (fun k hk q => by
        have q' : r < k := by simpa using q
        exact acc_term E (t := .upper) (d := d) (a := a) (hx k hk) (show r ≤ k by omega)
          (by rw [if_neg (by omega)]))
      (fun k _ q => by rw [tri_out (t := .upper) (show ¬ r ≤ k by simpa using q)]; simp [size_zero])

theorem acc_triRight (E : f.Errors u η) (t : Triangle) (d : Diag) {n m : ℕ} (a : ℕ → ℕ → CFP f R)
    (x : ℕ → CFP f R) (hx : ∀ k, k < n → (x k).Valid) (hm : m = n) {c : ℕ} (hc : c < n) :
    Acc u (n + 2) (n * (4 * η))
      (∀ k, k < n → t.region k c → (x k).Finite ∧ (triRegion t d k c → (a k c).Finite))
      (triElement (t = .upper) d m c (fun k => x k * a k c)
        (if d = .explicit then x c * a c c else x c) 0)
      (∑ k ∈ range n, (x k).val * triOf t d (fun i j => (a i j).val) k c)
      (∑ k ∈ range n, size (x k).val * size (triOf t d (fun i j => (a i j).val) k c)) := by
  subst hm
  refine Acc.from_zero ?_
  cases t with
  | upper =>
    exact acc_triElement E (before := true) hc zero_valid
      (acc_term_right E (t := .upper) (a := a) (hx c hc) (le_refl c) (diag_term d c _ _))
      (fun k hk q => by
        have q' : k < c := by simpa using q
        exact acc_term_right E (t := .upper) (d := d) (a := a) (hx k hk) (show k ≤ c by omega)
          (by rw [if_neg (by omega)]))
      (fun k _ q => by rw [tri_out (t := .upper) q]; simp [size_zero])
  | lower =>
    exact acc_triElement E (before := false) hc zero_valid
      (acc_term_right E (t := .lower) (a := a) (hx c hc) (le_refl c) (diag_term d c _ _))
      (fun k hk q => by
        have q' : c < k := by simpa using q
        exact acc_term_right E (t := .lower) (d := d) (a := a) (hx k hk) (show c ≤ k by omega)
          (by rw [if_neg (by omega)]))
      (fun k _ q => by rw [tri_out (t := .lower) (show ¬ c ≤ k by simpa using q)]; simp [size_zero])

/-- The in-place product from the right: the diagonal term first, then the others in ascending
order. -/
theorem acc_triRightInPlace_upper (E : f.Errors u η) (d : Diag) {n : ℕ} (a : ℕ → ℕ → CFP f R)
    (x : ℕ → CFP f R) (hx : ∀ k, k < n → (x k).Valid) {c : ℕ} (hc : c < n) :
    Acc u (n + 1) (n * (4 * η))
      (∀ k, k < n → Triangle.upper.region k c →
        (x k).Finite ∧ (triRegion .upper d k c → (a k c).Finite))
      (StdBLAS.leftSum (if d = .explicit then x c * a c c else x c) c fun k => x k * a k c)
      (∑ k ∈ range n, (x k).val * triOf .upper d (fun i j => (a i j).val) k c)
      (∑ k ∈ range n, size (x k).val * size (triOf .upper d (fun i j => (a i j).val) k c)) := by
  rw [sum_lower hc _ fun k hk h => by
      rw [tri_out (t := .upper) (show ¬ k ≤ c by omega), mul_zero],
    sum_lower hc _ fun k hk h => by
      rw [tri_out (t := .upper) (show ¬ k ≤ c by omega), size_zero, mul_zero],
    sum_range_succ, sum_range_succ, add_comm (∑ x_1 ∈ range c, _),
    add_comm (∑ x_1 ∈ range c, size _ * _)]
  have hs := acc_term_right E (t := .upper) (a := a) (hx c hc) (le_refl c)
    (diag_term d c (x c * a c c) (x c))
  refine Acc.mono E.u_nonneg (m := 2 + c) (by omega) (Acc.mono_z E.u_nonneg ?_
    ((Acc.leftSum E hs fun k hk =>
      acc_term_right E (t := .upper) (d := d) (a := a) (hx k (by omega)) (show k ≤ c by omega)
        (by rw [if_neg (by omega)])).congr ?_ rfl rfl rfl))
  · have := card_le E (m := c + 1) (show c + 1 ≤ n from hc)
    rw [sum_range_succ] at this
    linarith
  · refine ⟨fun h => ⟨h c hc (le_refl c), fun k hk => h k (by omega) (show k ≤ c by omega)⟩,
      fun h k hk hkc => ?_⟩
    have hkc' : k ≤ c := hkc
    rcases hkc'.lt_or_eq with hlt | rfl
    · exact h.2 k hlt
    · exact h.1

theorem acc_triRightInPlace_lower (E : f.Errors u η) (d : Diag) {n : ℕ} (a : ℕ → ℕ → CFP f R)
    (x : ℕ → CFP f R) (hx : ∀ k, k < n → (x k).Valid) {c : ℕ} (hc : c < n) :
    Acc u (n + 1) (n * (4 * η))
      (∀ k, k < n → Triangle.lower.region k c →
        (x k).Finite ∧ (triRegion .lower d k c → (a k c).Finite))
      (StdBLAS.leftSum (if d = .explicit then x c * a c c else x c) (n - 1 - c) fun k =>
        x (c + 1 + k) * a (c + 1 + k) c)
      (∑ k ∈ range n, (x k).val * triOf .lower d (fun i j => (a i j).val) k c)
      (∑ k ∈ range n, size (x k).val * size (triOf .lower d (fun i j => (a i j).val) k c)) :=
  acc_inPlace E (before := false) hc (v := fun k => x k * a k c)
    (acc_term_right E (t := .lower) (a := a) (hx c hc) (le_refl c) (diag_term d c _ _))
    (fun k hk q => by
      have q' : c < k := by simpa using q
      exact acc_term_right E (t := .lower) (d := d) (a := a) (hx k hk) (show c ≤ k by omega)
        (by rw [if_neg (by omega)]))
    (fun k _ q => by rw [tri_out (t := .lower) (show ¬ c ≤ k by simpa using q)]; simp [size_zero])

/-- A row of a solve before the division. -/
noncomputable def solvePart (t : Triangle) (n i : ℕ) (v : ℕ → CFP f R) (b : CFP f R) : CFP f R :=
  match t with
  | .lower => StdBLAS.leftDiff b i v
  | .upper => StdBLAS.leftDiff b (n - 1 - i) fun k => v (i + 1 + k)

theorem solveRow_eq (divide : CFP f R → CFP f R → CFP f R) (t : Triangle) (d : Diag) (n i : ℕ) (v : ℕ → CFP f R) (b diag : CFP f R) :
    letI : Div (CFP f R) := ⟨divide⟩
    solveRow t d n i v b diag =
      if d = .explicit then divide (solvePart t n i v b) diag else solvePart t n i v b := by
  cases t <;> rfl

/-- The strict part of a row. -/
theorem acc_strict (E : f.Errors u η) {t : Triangle} {n i : ℕ} (hi : i < n) {b : CFP f R}
    (hb : b.Valid) {v : ℕ → CFP f R} {e : ℕ → ℂ} {w : ℕ → ℝ} {J : ℕ → Prop}
    (hin : ∀ k, k < n → t.region i k → k ≠ i → Acc u 2 (4 * η) (J k) (v k) (e k) (w k))
    (hout : ∀ k, k < n → ¬ t.region i k → e k = 0 ∧ w k = 0) :
    Acc u (n + 1) (n * (4 * η)) (b.Finite ∧ ∀ k, k < n → t.region i k → k ≠ i → J k)
      (solvePart t n i v b)
      (b.val - (∑ k ∈ range n, e k - e i)) (size b.val + (∑ k ∈ range n, w k - w i)) := by
  have hu := E.u_nonneg
  cases t with
  | lower =>
    have hl : ∀ {α : Type} [AddCommGroup α] {g : ℕ → α}, (∀ k, k < n → ¬ k ≤ i → g k = 0) →
        ∑ k ∈ range n, g k - g i = ∑ k ∈ range i, g k := by
      intro α _ g hg
      rw [sum_lower hi g fun k hk h => hg k hk (by omega), sum_range_succ, add_sub_cancel_right]
    rw [hl fun k hk h => (hout k hk h).1, hl fun k hk h => (hout k hk h).2]
    refine Acc.mono hu (m := 2 + i) (by omega) (Acc.mono_z hu (card_le E (m := i) (by omega))
      ((Acc.leftDiff E (acc_input hu 2 hb) (J := J) fun k hk =>
        hin k (by omega) (show k ≤ i by omega) (by omega)).congr ?_ rfl rfl rfl))
    refine ⟨fun h => ⟨h.1, fun k hk => h.2 k (by omega) (show k ≤ i by omega) (by omega)⟩,
      fun h => ⟨h.1, fun k hk hki hne => h.2 k ?_⟩⟩
    have : k ≤ i := hki
    omega
  | upper =>
    have hl : ∀ {α : Type} [AddCommGroup α] {g : ℕ → α}, (∀ k, k < n → ¬ i ≤ k → g k = 0) →
        ∑ k ∈ range n, g k - g i = ∑ k ∈ range (n - 1 - i), g (i + 1 + k) := by
      intro α _ g hg
      rw [sum_upper' hi g fun k hk => hg k (by omega) (by omega), add_sub_cancel_left]
    rw [hl fun k hk h => (hout k hk h).1, hl fun k hk h => (hout k hk h).2]
    refine Acc.mono hu (m := 2 + (n - 1 - i)) (by omega) (Acc.mono_z hu
      (card_le E (m := n - 1 - i) (by omega))
      ((Acc.leftDiff E (acc_input hu 2 hb) (J := fun k => J (i + 1 + k)) fun k hk =>
        hin (i + 1 + k) (by omega) (show i ≤ i + 1 + k by omega) (by omega)).congr ?_ rfl rfl rfl))
    refine ⟨fun h => ⟨h.1, fun k hk => h.2 _ (by omega) (show i ≤ i + 1 + k by omega) (by omega)⟩,
      fun h => ⟨h.1, fun k hk hki hne => ?_⟩⟩
    have hki' : i ≤ k := hki
    have := h.2 (k - i - 1) (by omega)
    rwa [show i + 1 + (k - i - 1) = k by omega] at this

theorem div_real {δ P z M Z : ℝ} {s S x y : ℂ} (hδ : 0 ≤ δ) (hs : size (s - S) ≤ (P - 1) * M + P * z)
    (hS : size S ≤ M) (hx : size (s - y * x) ≤ δ * size s + Z) :
    size (S - y * x) ≤ ((1 + δ) * P - 1) * M + (1 + δ) * P * z + Z := by
  have h3 : size s ≤ P * M + P * z := by
    have := size_add_le (s - S) S
    rw [sub_add_cancel] at this
    linarith
  have h4 := mul_le_mul_of_nonneg_left h3 hδ
  calc size (S - y * x) = size (-(s - S) + (s - y * x)) := by congr 1; ring
    _ ≤ size (-(s - S)) + size (s - y * x) := size_add_le _ _
    _ = size (s - S) + size (s - y * x) := by rw [size_neg]
    _ ≤ _ := by linarith

/-- One row of a solve: how far the computed row is from satisfying its equation. -/
theorem acc_solve (E : f.Errors u η) {δ ζ : ℝ} {divide : CFP f R → CFP f R → CFP f R}
    (D : Divides divide δ ζ) {t : Triangle} {d : Diag} {n i : ℕ} (hi : i < n) {b diag x : CFP f R}
    (hb : b.Valid) {v : ℕ → CFP f R} {e : ℕ → ℂ} {w : ℕ → ℝ} {J : ℕ → Prop}
    (hin : ∀ k, k < n → t.region i k → k ≠ i → Acc u 2 (4 * η) (J k) (v k) (e k) (w k))
    (hout : ∀ k, k < n → ¬ t.region i k → e k = 0 ∧ w k = 0) (hwi : 0 ≤ w i)
    (hdiag : d = .explicit → diag.Finite)
    (hei : e i = if d = .explicit then diag.val * x.val else x.val)
    (hx : x = (letI : Div (CFP f R) := ⟨divide⟩; solveRow t d n i v b diag)) (hfin : x.Finite) :
    (b.Finite ∧ (d = .explicit → diag.val ≠ 0) ∧ ∀ k, k < n → t.region i k → k ≠ i → J k) ∧
    size (b.val - ∑ k ∈ range n, e k) ≤
      ((1 + δ) * (1 + u) ^ (n + 1) - 1) * (size b.val + ∑ k ∈ range n, w k) +
      ((1 + δ) * (1 + u) ^ (n + 1) * (n * (4 * η)) + if d = .explicit then ζ * size diag.val else 0) := by
  have hu := E.u_nonneg
  have hδ := D.delta_nonneg
  have c := acc_strict E hi hb hin hout
  have hP : 1 ≤ (1 + u) ^ (n + 1) := one_le_pow₀ (by linarith)
  have hP' : (1 + u) ^ (n + 1) ≤ (1 + δ) * (1 + u) ^ (n + 1) := le_mul_of_one_le_left (by linarith) (by linarith)
  rw [solveRow_eq] at hx
  generalize solvePart t n i v b = s at *
  have hM : 0 ≤ size b.val + (∑ k ∈ range n, w k - w i) := (size_nonneg _).trans c.abs_le
  have hMw : size b.val + (∑ k ∈ range n, w k - w i) ≤ size b.val + ∑ k ∈ range n, w k := by linarith
  have hz := c.z_nonneg
  have e1 : b.val - ∑ k ∈ range n, e k = b.val - (∑ k ∈ range n, e k - e i) - e i := by ring
  cases d with
  | implicitUnit =>
    simp only [reduceCtorEq, if_false] at *
    subst hx
    have := c.error hfin
    refine ⟨⟨this.1.1, fun h => h.elim, this.1.2⟩, ?_⟩
    rw [hei] at e1 this
    rw [e1, ← size_neg, neg_sub]
    refine this.2.trans ?_
    have h1 := mul_le_mul_of_nonneg_left hMw (sub_nonneg.2 hP)
    have h2 := mul_le_mul_of_nonneg_right (sub_le_sub_right hP' 1) (hM.trans hMw)
    have h3 := mul_le_mul_of_nonneg_right hP' hz
    linarith
  | explicit =>
    simp only [if_true, true_imp_iff] at *
    obtain ⟨hs, hy, hq⟩ := D.error s diag hdiag (hx ▸ hfin)
    rw [← hx] at hq
    have := c.error hs
    refine ⟨⟨this.1.1, hy, this.1.2⟩, ?_⟩
    have key := div_real hδ this.2 c.abs_le hq
    rw [hei] at e1 key
    rw [e1]
    refine key.trans ?_
    have h1 := mul_le_mul_of_nonneg_left hMw (sub_nonneg.2 (hP.trans hP'))
    linarith

theorem acc_solveLeft (E : f.Errors u η) {δ ζ : ℝ} {divide : CFP f R → CFP f R → CFP f R}
    (D : Divides divide δ ζ) {t : Triangle} {d : Diag} {n i : ℕ} {a : ℕ → ℕ → CFP f R}
    {r : ℕ → CFP f R} {b : CFP f R} (hi : i < n) (hb : b.Valid) (hdiag : d = .explicit → (a i i).Finite)
    (hx : r i = (letI : Div (CFP f R) := ⟨divide⟩; solveRow t d n i (fun k => a i k * r k) b (a i i)))
    (hfin : (r i).Finite) :
    (b.Finite ∧ (d = .explicit → (a i i).val ≠ 0) ∧
      ∀ k, k < n → t.region i k → k ≠ i → (a i k).Finite ∧ (r k).Finite) ∧
    size (b.val - ∑ k ∈ range n, triOf t d (fun i j => (a i j).val) i k * (r k).val) ≤
      ((1 + δ) * (1 + u) ^ (n + 1) - 1) * (size b.val +
        ∑ k ∈ range n, size (triOf t d (fun i j => (a i j).val) i k) * size (r k).val) +
      ((1 + δ) * (1 + u) ^ (n + 1) * (n * (4 * η)) + if d = .explicit then ζ * size (a i i).val else 0) := by
  refine acc_solve E D (J := fun k => (a i k).Finite ∧ (r k).Finite) hi hb (fun k _ q hk => ?_)
    (fun k _ q => ?_) (mul_nonneg (size_nonneg _) (size_nonneg _)) hdiag ?_ hx hfin
  · rw [triOf_inside (fun e => hk e.symm) q]
    exact acc_mul E _ _
  · rw [tri_out q]; simp [size_zero]
  · rw [triOf_diag]
    cases d <;> simp

theorem acc_solveRight (E : f.Errors u η) {δ ζ : ℝ} {divide : CFP f R → CFP f R → CFP f R}
    (D : Divides divide δ ζ) {t : Triangle} {d : Diag} {n j : ℕ} {a : ℕ → ℕ → CFP f R}
    {r : ℕ → CFP f R} {b : CFP f R} (hj : j < n) (hb : b.Valid) (hdiag : d = .explicit → (a j j).Finite)
    (hx : r j = (letI : Div (CFP f R) := ⟨divide⟩;
      solveRow t.other d n j (fun k => r k * a k j) b (a j j))) (hfin : (r j).Finite) :
    (b.Finite ∧ (d = .explicit → (a j j).val ≠ 0) ∧
      ∀ k, k < n → t.region k j → k ≠ j → (r k).Finite ∧ (a k j).Finite) ∧
    size (b.val - ∑ k ∈ range n, (r k).val * triOf t d (fun i j => (a i j).val) k j) ≤
      ((1 + δ) * (1 + u) ^ (n + 1) - 1) * (size b.val +
        ∑ k ∈ range n, size (r k).val * size (triOf t d (fun i j => (a i j).val) k j)) +
      ((1 + δ) * (1 + u) ^ (n + 1) * (n * (4 * η)) + if d = .explicit then ζ * size (a j j).val else 0) := by
  have key := acc_solve E D (e := fun k => (r k).val * triOf t d (fun i j => (a i j).val) k j)
    (w := fun k => size (r k).val * size (triOf t d (fun i j => (a i j).val) k j))
    (J := fun k => (r k).Finite ∧ (a k j).Finite) hj hb (fun k _ q hk => ?_)
    (fun k _ q => ?_) (mul_nonneg (size_nonneg _) (size_nonneg _)) hdiag ?_ hx hfin
  · exact ⟨⟨key.1.1, key.1.2.1, fun k hk q => key.1.2.2 k hk ((FP.other_region t j k).2 q)⟩, key.2⟩
  · rw [triOf_inside hk ((FP.other_region t j k).1 q)]
    exact acc_mul E _ _
  · rw [tri_out (fun h => q ((FP.other_region t j k).2 h))]; simp [size_zero]
  · rw [triOf_diag]
    cases d <;> simp [mul_comm]

/-- The sizes of divisor and quotient. -/
theorem size_div {s d : ℂ} (hd : d ≠ 0) : size d * size (s / d) ≤ 2 * size s := by
  have hsq : ∀ z : ℂ, size z ^ 2 ≤ 2 * Complex.normSq z := by
    intro z
    rw [Complex.normSq_apply, size]
    nlinarith [sq_abs z.re, sq_abs z.im, sq_nonneg (|z.re| - |z.im|)]
  have hsq' : ∀ z : ℂ, Complex.normSq z ≤ size z ^ 2 := by
    intro z
    rw [Complex.normSq_apply, size]
    nlinarith [sq_abs z.re, sq_abs z.im, mul_nonneg (abs_nonneg z.re) (abs_nonneg z.im)]
  have h0 := size_nonneg s
  have hm : Complex.normSq d * Complex.normSq (s / d) = Complex.normSq s := by
    rw [← Complex.normSq_mul, mul_div_cancel₀ _ hd]
  refine le_of_sq_le_sq ?_ (by linarith)
  calc (size d * size (s / d)) ^ 2 = size d ^ 2 * size (s / d) ^ 2 := mul_pow _ _ _
    _ ≤ (2 * Complex.normSq d) * (2 * Complex.normSq (s / d)) :=
        mul_le_mul (hsq _) (hsq _) (sq_nonneg _) (mul_nonneg zero_le_two (Complex.normSq_nonneg _))
    _ = 4 * Complex.normSq s := by rw [← hm]; ring
    _ ≤ (2 * size s) ^ 2 := by linarith [hsq' s, mul_pow 2 (size s) 2]

/-- Rounding the exact quotient is a division. -/
theorem roundedQuotient_divides (E : f.Errors u η) :
    Divides (roundedQuotient (F := f) (R := R)) (2 * u) (2 * η) := by
  refine ⟨by linarith [E.u_nonneg], by linarith [E.eta_nonneg], fun s d _ hq => ?_⟩
  unfold roundedQuotient at *
  split_ifs at * with h
  · obtain ⟨hs, -, hd⟩ := h
    refine ⟨hs, hd, ?_⟩
    generalize hQ : s.val / d.val = q at *
    have hv : (⟨FP.ofReal f q.re, FP.ofReal f q.im⟩ : CFP f R).val = ⟨f.rnd q.re, f.rnd q.im⟩ := by
      rw [← FP.ofReal_val hq.1, ← FP.ofReal_val hq.2]
      rfl
    have hs' : s.val = d.val * q := by rw [← hQ, mul_div_cancel₀ _ hd]
    have h1 : size (q - (⟨f.rnd q.re, f.rnd q.im⟩ : ℂ)) ≤ u * size q + 2 * η := by
      have h1 := E.err q.re
      have h2 := E.err q.im
      rw [abs_sub_comm] at h1 h2
      change |q.re - f.rnd q.re| + |q.im - f.rnd q.im| ≤ u * (|q.re| + |q.im|) + 2 * η
      linarith
    have h2 : size d.val * size q ≤ 2 * size s.val := hQ ▸ size_div hd
    have h3 := mul_le_mul_of_nonneg_left h2 E.u_nonneg
    rw [hv]
    calc size (s.val - d.val * (⟨f.rnd q.re, f.rnd q.im⟩ : ℂ))
        = size (d.val * (q - (⟨f.rnd q.re, f.rnd q.im⟩ : ℂ))) := by rw [hs', mul_sub]
      _ ≤ size d.val * size (q - (⟨f.rnd q.re, f.rnd q.im⟩ : ℂ)) := size_mul_le _ _
      _ ≤ size d.val * (u * size q + 2 * η) := mul_le_mul_of_nonneg_left h1 (size_nonneg _)
      _ ≤ _ := by linarith
  · exact hq.1.elim

end Tri

/-! ## Sums of absolute values -/

theorem acc_absSum (E : f.Errors u η) (n : ℕ) (x : ℕ → CFP f R) {s : FP f} (hs : s.Valid)
    (hx : ∀ k, k < n → (x k).Valid) :
    FP.Acc u (2 * n) 0 (s.Finite ∧ ∀ k, k < n → (x k).Finite)
      (foldUp n (fun s k => s + FP.abs (x k).re + FP.abs (x k).im) s)
      (s.val + ∑ k ∈ range n, size (x k).val) (|s.val| + ∑ k ∈ range n, size (x k).val) := by
  have v : ∀ {a : FP f} (m : ℕ), a.Valid → FP.Acc u m 0 a.Finite (FP.abs a) |a.val| |a.val| :=
    fun {a} m ha => (FP.acc_input E.u_nonneg m (ha.abs E)).congr FP.finite_abs.symm
      (by cases a <;> simp [FP.abs, FP.val]) (by cases a <;> simp [FP.abs, FP.val]) rfl
  induction n with
  | zero => simpa [foldUp] using FP.acc_input E.u_nonneg 0 hs
  | succ n ih =>
    have c := ((ih fun k hk => hx k (by omega)).add E (v _ (hx n (by omega)).1)).add E
      (v _ (hx n (by omega)).2)
    rw [sum_range_succ]
    refine c.congr ?_ ?_ ?_ (by ring)
    · constructor
      · exact fun h => ⟨⟨⟨h.1, fun k hk => h.2 k (by omega)⟩, (h.2 n (by omega)).1⟩, (h.2 n (by omega)).2⟩
      · refine fun h => ⟨h.1.1.1, fun k hk => ?_⟩
        rcases Nat.lt_succ_iff_lt_or_eq.1 hk with hk | rfl
        · exact h.1.1.2 k hk
        · exact ⟨h.1.2, h.2⟩
    · rw [size, add_assoc, add_assoc]; rfl
    · rw [size, add_assoc, add_assoc]; rfl

end CFP
end StdBLAS

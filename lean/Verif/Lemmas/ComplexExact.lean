import Verif.Spec.ComplexExact
import Verif.Lemmas.FloatExact
import Verif.Lemmas.AccurateComplex

/-! # Complex sums and products without rounding errors -/

namespace StdBLAS
open Finset

theorem Multiple.sub {g x y : ℝ} (hx : Multiple g x) (hy : Multiple g y) : Multiple g (x - y) := by
  rw [sub_eq_add_neg]; exact hx.add hy.neg

theorem Multiple.zero (g : ℝ) : Multiple g 0 := ⟨0, by simp⟩

namespace CFP
variable {f : Format} {R : Recovery f} {N : ℕ} {G g₁ g₂ : ℝ}

/-- Both parts are multiples of `g`. -/
def GMul (g : ℝ) (z : ℂ) : Prop := Multiple g z.re ∧ Multiple g z.im

theorem GMul.add {g : ℝ} {x y : ℂ} (hx : GMul g x) (hy : GMul g y) : GMul g (x + y) :=
  ⟨hx.1.add hy.1, hx.2.add hy.2⟩

theorem GMul.neg {g : ℝ} {x : ℂ} (hx : GMul g x) : GMul g (-x) := ⟨hx.1.neg, hx.2.neg⟩

theorem GMul.sub {g : ℝ} {x y : ℂ} (hx : GMul g x) (hy : GMul g y) : GMul g (x - y) :=
  ⟨hx.1.sub hy.1, hx.2.sub hy.2⟩

theorem GMul.mul {g h : ℝ} {x y : ℂ} (hx : GMul g x) (hy : GMul h y) : GMul (g * h) (x * y) :=
  ⟨(hx.1.mul hy.1).sub (hx.2.mul hy.2), (hx.1.mul hy.2).add (hx.2.mul hy.1)⟩

theorem GMul.zero (g : ℝ) : GMul g 0 := ⟨Multiple.zero g, Multiple.zero g⟩

theorem GMul.one {g : ℝ} (h : Multiple g 1) : GMul g 1 := ⟨h, Multiple.zero g⟩

theorem On.val {g : ℝ} {a : CFP f R} (h : a.On g) : GMul g a.val := ⟨h.1.val, h.2.val⟩

theorem On.eq {g : ℝ} {a : CFP f R} (h : a.On g) : a = fin a.val := CFP.ext h.1.eq h.2.eq

theorem On.zero (g : ℝ) : (0 : CFP f R).On g := ⟨Multiple.zero g, Multiple.zero g⟩

theorem On.conj {g : ℝ} {a : CFP f R} (h : a.On g) : (ConjOps.conj a).On g := by
  refine ⟨h.1, ?_⟩
  change (FP.neg a.im).On g
  rw [h.2.eq]
  exact h.2.val.neg

theorem On.re {g : ℝ} {a : CFP f R} (h : a.On g) : (ConjOps.re a).On g := ⟨h.1, Multiple.zero g⟩

theorem re_size (z : ℂ) : |z.re| ≤ size z := le_add_of_nonneg_right (abs_nonneg _)

theorem im_size (z : ℂ) : |z.im| ≤ size z := le_add_of_nonneg_left (abs_nonneg _)

theorem add_exact (E : f.Grid N G) {x y : ℂ} (hx : GMul G x) (hy : GMul G y)
    (hw : size (x + y) ≤ N * G) : (fin x + fin y : CFP f R) = fin (x + y) :=
  CFP.ext (FP.ofReal_exact E (hx.1.add hy.1) ((re_size (x + y)).trans hw))
    (FP.ofReal_exact E (hx.2.add hy.2) ((im_size (x + y)).trans hw))

theorem sub_fin (a b : ℝ) : (FP.fin a - FP.fin b : FP f) = FP.ofReal f (a - b) := by
  rw [sub_eq_add_neg]; rfl

theorem sub_exact (E : f.Grid N G) {x y : ℂ} (hx : GMul G x) (hy : GMul G y)
    (hw : size (x - y) ≤ N * G) : (fin x - fin y : CFP f R) = fin (x - y) := by
  refine CFP.ext ?_ ?_
  · exact (sub_fin _ _).trans (FP.ofReal_exact E (hx.1.sub hy.1) ((re_size (x - y)).trans hw))
  · exact (sub_fin _ _).trans (FP.ofReal_exact E (hx.2.sub hy.2) ((im_size (x - y)).trans hw))

/-- Four products, a difference and a sum. -/
theorem mul_exact (E : f.Grid N (g₁ * g₂)) {x y : ℂ} (hx : GMul g₁ x) (hy : GMul g₂ y)
    (hw : size x * size y ≤ N * (g₁ * g₂)) : (fin x * fin y : CFP f R) = fin (x * y) := by
  have p : ∀ {a b : ℝ}, Multiple g₁ a → Multiple g₂ b → |a| ≤ size x → |b| ≤ size y →
      (FP.fin a * FP.fin b : FP f) = FP.fin (a * b) := fun ha hb h1 h2 =>
    FP.ofReal_exact E (ha.mul hb) (by
      rw [abs_mul]
      exact (mul_le_mul h1 h2 (abs_nonneg _) (size_nonneg _)).trans hw)
  have h0 := (size_mul_le x y).trans hw
  have e1 : (FP.fin x.re * FP.fin y.re - FP.fin x.im * FP.fin y.im : FP f) = FP.fin (x * y).re := by
    rw [p hx.1 hy.1 (re_size x) (re_size y), p hx.2 hy.2 (im_size x) (im_size y), sub_fin]
    exact FP.ofReal_exact E (hx.mul hy).1 ((re_size _).trans h0)
  have e2 : (FP.fin x.re * FP.fin y.im + FP.fin x.im * FP.fin y.re : FP f) = FP.fin (x * y).im := by
    rw [p hx.1 hy.2 (re_size x) (im_size y), p hx.2 hy.1 (im_size x) (re_size y)]
    exact FP.ofReal_exact E (hx.mul hy).2 ((im_size _).trans h0)
  have h : (fin x * fin y : CFP f R) = _ := mul_eq' (fin x) (fin y) (by
    change (FP.fin x.re * FP.fin y.re - FP.fin x.im * FP.fin y.im : FP f).Finite ∧
      (FP.fin x.re * FP.fin y.im + FP.fin x.im * FP.fin y.re : FP f).Finite
    rw [e1, e2]
    exact ⟨trivial, trivial⟩)
  rw [h]
  exact CFP.ext e1 e2

/-- What the induction over a sum carries along. -/
structure Ex (N : ℕ) (G : ℝ) (I : Prop) (r : CFP f R) (e : ℂ) (w : ℝ) : Prop where
  abs_le : size e ≤ w
  exact : I → w ≤ N * G → r = fin e ∧ GMul G e

theorem Ex.toExact {I : Prop} {r : CFP f R} {e : ℂ} {w : ℝ} (c : Ex N G I r e w) : Exact N G I r e w :=
  fun hI hw => (c.exact hI hw).1

theorem Ex.congr {I I' : Prop} {r : CFP f R} {e e' : ℂ} {w w' : ℝ} (c : Ex N G I r e w) (hI : I' → I)
    (he : e' = e) (hw : w' = w) : Ex N G I' r e' w' := by
  subst he hw
  exact ⟨c.abs_le, fun h => c.exact (hI h)⟩

theorem ex_input (a : CFP f R) : Ex N G (a.On G) a a.val (size a.val) :=
  ⟨le_rfl, fun h _ => ⟨h.eq, h.val⟩⟩

theorem Ex.add (E : f.Grid N G) {I I' : Prop} {a b : CFP f R} {e e' : ℂ} {w w' : ℝ}
    (c : Ex N G I a e w) (c' : Ex N G I' b e' w') :
    Ex N G (I ∧ I') (a + b) (e + e') (w + w') := by
  have h0 : size (e + e') ≤ w + w' := (size_add_le _ _).trans (add_le_add c.abs_le c'.abs_le)
  refine ⟨h0, fun h hw => ?_⟩
  have p := (size_nonneg _).trans c.abs_le
  have p' := (size_nonneg _).trans c'.abs_le
  obtain ⟨r1, m1⟩ := c.exact h.1 (by linarith)
  obtain ⟨r2, m2⟩ := c'.exact h.2 (by linarith)
  refine ⟨?_, m1.add m2⟩
  rw [r1, r2]
  exact add_exact E m1 m2 (h0.trans hw)

theorem Ex.sub (E : f.Grid N G) {I I' : Prop} {a b : CFP f R} {e e' : ℂ} {w w' : ℝ}
    (c : Ex N G I a e w) (c' : Ex N G I' b e' w') :
    Ex N G (I ∧ I') (a - b) (e - e') (w + w') := by
  have h0 : size (e - e') ≤ w + w' := by
    rw [sub_eq_add_neg]
    refine (size_add_le _ _).trans (add_le_add c.abs_le ?_)
    rw [size_neg]
    exact c'.abs_le
  refine ⟨h0, fun h hw => ?_⟩
  have p := (size_nonneg _).trans c.abs_le
  have p' := (size_nonneg _).trans c'.abs_le
  obtain ⟨r1, m1⟩ := c.exact h.1 (by linarith)
  obtain ⟨r2, m2⟩ := c'.exact h.2 (by linarith)
  refine ⟨?_, m1.sub m2⟩
  rw [r1, r2]
  exact sub_exact E m1 m2 (h0.trans hw)

/-- A computed number times an input.  The computed number has to be exact by itself. -/
theorem Ex.mul_input (E : f.Grid N (G * g₂)) {I : Prop} {a b : CFP f R} {e : ℂ} {w : ℝ}
    (c : Ex N G I a e w) :
    Ex N (G * g₂) (I ∧ w ≤ N * G ∧ b.On g₂) (a * b) (e * b.val) (w * size b.val) := by
  have h1 : size e * size b.val ≤ w * size b.val :=
    mul_le_mul_of_nonneg_right c.abs_le (size_nonneg _)
  refine ⟨(size_mul_le _ _).trans h1, fun h hw => ?_⟩
  obtain ⟨r, m⟩ := c.exact h.1 h.2.1
  refine ⟨?_, m.mul h.2.2.val⟩
  rw [r]
  conv_lhs => rw [h.2.2.eq]
  exact mul_exact E m h.2.2.val (h1.trans hw)

theorem ex_mul (E : f.Grid N (g₁ * g₂)) (a b : CFP f R) :
    Ex N (g₁ * g₂) (a.On g₁ ∧ b.On g₂) (a * b) (a.val * b.val) (size a.val * size b.val) := by
  refine ⟨size_mul_le _ _, fun h hw => ⟨?_, h.1.val.mul h.2.val⟩⟩
  conv_lhs => rw [h.1.eq, h.2.eq]
  exact mul_exact E h.1.val h.2.val hw


theorem ex_mul_conj (E : f.Grid N (g₁ * g₂)) (a b : CFP f R) :
    Ex N (g₁ * g₂) (a.On g₁ ∧ b.On g₂) (a * ConjOps.conj b) (a.val * (starRingEnd ℂ) b.val)
      (size a.val * size b.val) :=
  (ex_mul E a (ConjOps.conj b)).congr (fun h => ⟨h.1, h.2.conj⟩) (by rw [val_conj])
    (by rw [val_conj, size_conj])

theorem ex_conj_mul (E : f.Grid N (g₁ * g₂)) (a b : CFP f R) :
    Ex N (g₁ * g₂) (a.On g₁ ∧ b.On g₂) (ConjOps.conj a * b) ((starRingEnd ℂ) a.val * b.val)
      (size a.val * size b.val) :=
  (ex_mul E (ConjOps.conj a) b).congr (fun h => ⟨h.1.conj, h.2⟩) (by rw [val_conj])
    (by rw [val_conj, size_conj])

theorem Ex.mul_input_conj (E : f.Grid N (G * g₂)) {I : Prop} {a b : CFP f R} {e : ℂ} {w : ℝ}
    (c : Ex N G I a e w) :
    Ex N (G * g₂) (I ∧ w ≤ N * G ∧ b.On g₂) (a * ConjOps.conj b) (e * (starRingEnd ℂ) b.val)
      (w * size b.val) :=
  (c.mul_input E (b := ConjOps.conj b)).congr (fun h => ⟨h.1, h.2.1, h.2.2.conj⟩)
    (by rw [val_conj]) (by rw [val_conj, size_conj])

theorem Ex.leftSum (E : f.Grid N G) {n : ℕ} {s : CFP f R} {t : ℕ → CFP f R} {S : ℂ} {M : ℝ} {I : Prop}
    {e : ℕ → ℂ} {w : ℕ → ℝ} {J : ℕ → Prop} (c : Ex N G I s S M)
    (ct : ∀ k, k < n → Ex N G (J k) (t k) (e k) (w k)) :
    Ex N G (I ∧ ∀ k, k < n → J k) (leftSum s n t)
      (S + ∑ k ∈ range n, e k) (M + ∑ k ∈ range n, w k) := by
  induction n with
  | zero => exact c.congr (fun h => h.1) (by simp) (by simp)
  | succ n ih =>
    rw [sum_range_succ, sum_range_succ, ← add_assoc, ← add_assoc]
    exact ((ih fun k hk => ct k (by omega)).add E (ct n (by omega))).congr
      (fun h => ⟨⟨h.1, fun k hk => h.2 k (by omega)⟩, h.2 n (by omega)⟩) rfl rfl

theorem Ex.leftDiff (E : f.Grid N G) {n : ℕ} {s : CFP f R} {t : ℕ → CFP f R} {S : ℂ} {M : ℝ} {I : Prop}
    {e : ℕ → ℂ} {w : ℕ → ℝ} {J : ℕ → Prop} (c : Ex N G I s S M)
    (ct : ∀ k, k < n → Ex N G (J k) (t k) (e k) (w k)) :
    Ex N G (I ∧ ∀ k, k < n → J k) (leftDiff s n t)
      (S - ∑ k ∈ range n, e k) (M + ∑ k ∈ range n, w k) := by
  induction n with
  | zero => exact c.congr (fun h => h.1) (by simp) (by simp)
  | succ n ih =>
    rw [sum_range_succ, sum_range_succ, ← sub_sub, ← add_assoc]
    exact ((ih fun k hk => ct k (by omega)).sub E (ct n (by omega))).congr
      (fun h => ⟨⟨h.1, fun k hk => h.2 k (by omega)⟩, h.2 n (by omega)⟩) rfl rfl

theorem Ex.from_zero {I : Prop} {r : CFP f R} {e : ℂ} {w : ℝ}
    (c : Ex N G ((0 : CFP f R).On G ∧ I) r ((0 : CFP f R).val + e) (size (0 : CFP f R).val + w)) :
    Ex N G I r e w :=
  c.congr (fun h => ⟨On.zero G, h⟩) (zero_add _).symm
    (by rw [show (0 : CFP f R).val = 0 from rfl, size_zero, zero_add])

/-- A sum of `n` products of inputs. -/
theorem ex_products (E : f.Grid N (g₁ * g₂)) (n : ℕ) (x y : ℕ → CFP f R) (s : CFP f R) :
    Ex N (g₁ * g₂) (s.On (g₁ * g₂) ∧ ∀ k, k < n → (x k).On g₁ ∧ (y k).On g₂)
      (StdBLAS.leftSum s n fun k => x k * y k)
      (s.val + ∑ k ∈ range n, (x k).val * (y k).val)
      (size s.val + ∑ k ∈ range n, size (x k).val * size (y k).val) :=
  Ex.leftSum E (ex_input s) fun k _ => ex_mul E (x k) (y k)

theorem ex_products_zero (E : f.Grid N (g₁ * g₂)) (n : ℕ) (x y : ℕ → CFP f R) :
    Ex N (g₁ * g₂) (∀ k, k < n → (x k).On g₁ ∧ (y k).On g₂)
      (StdBLAS.leftSum 0 n fun k => x k * y k)
      (∑ k ∈ range n, (x k).val * (y k).val) (∑ k ∈ range n, size (x k).val * size (y k).val) :=
  (ex_products E n x y 0).from_zero

/-! ## Triangular matrices -/

section Tri
variable {t : Triangle} {d : Diag} {a : ℕ → ℕ → CFP f R} {x : ℕ → CFP f R}

/-- A term of a row of a triangular product. -/
theorem ex_term (E : f.Grid N (g₁ * g₂)) (h1 : d = .implicitUnit → Multiple g₁ 1) {r c : ℕ}
    (q : t.region r c) {v : CFP f R}
    (hv : v = if d = .implicitUnit ∧ c = r then x c else a r c * x c) :
    Ex N (g₁ * g₂) ((x c).On g₂ ∧ (triRegion t d r c → (a r c).On g₁)) v
      (triOf t d (fun i j => (a i j).val) r c * (x c).val)
      (size (triOf t d (fun i j => (a i j).val) r c) * size (x c).val) := by
  subst hv
  by_cases e : d = .implicitUnit ∧ c = r
  · obtain ⟨rfl, rfl⟩ := e
    rw [if_pos ⟨rfl, rfl⟩, triOf_diag]
    change Ex _ _ _ _ (1 * _) (size 1 * _)
    rw [one_mul, size_one, one_mul]
    refine ⟨le_rfl, fun h _ => ⟨h.1.eq, ?_⟩⟩
    have := (GMul.one (h1 rfl)).mul h.1.val
    rwa [one_mul] at this
  · rw [if_neg e]
    have hr : triRegion t d r c := ⟨q, fun hd hrc => e ⟨hd, hrc.symm⟩⟩
    have ht : triOf t d (fun i j => (a i j).val) r c = (a r c).val := by
      by_cases hrc : r = c
      · subst hrc
        rw [triOf_diag]
        cases d
        · exact absurd ⟨rfl, rfl⟩ e
        · rfl
      · exact triOf_inside hrc q
    rw [ht]
    exact (ex_mul E (a r c) (x c)).congr (fun h => ⟨h.2 hr, h.1⟩) rfl rfl

/-- The same with the factors in the other order. -/
theorem ex_term_right (E : f.Grid N (g₁ * g₂)) (h1 : d = .implicitUnit → Multiple g₂ 1) {r c : ℕ}
    (q : t.region r c) {v : CFP f R}
    (hv : v = if d = .implicitUnit ∧ r = c then x r else x r * a r c) :
    Ex N (g₁ * g₂) ((x r).On g₁ ∧ (triRegion t d r c → (a r c).On g₂)) v
      ((x r).val * triOf t d (fun i j => (a i j).val) r c)
      (size (x r).val * size (triOf t d (fun i j => (a i j).val) r c)) := by
  subst hv
  by_cases e : d = .implicitUnit ∧ r = c
  · obtain ⟨rfl, rfl⟩ := e
    rw [if_pos ⟨rfl, rfl⟩, triOf_diag]
    change Ex _ _ _ _ (_ * 1) (_ * size 1)
    rw [mul_one, size_one, mul_one]
    refine ⟨le_rfl, fun h _ => ⟨h.1.eq, ?_⟩⟩
    have := h.1.val.mul (GMul.one (h1 rfl))
    rwa [mul_one] at this
  · rw [if_neg e]
    have hr : triRegion t d r c := ⟨q, fun hd hrc => e ⟨hd, hrc⟩⟩
    have ht : triOf t d (fun i j => (a i j).val) r c = (a r c).val := by
      by_cases hrc : r = c
      · subst hrc
        rw [triOf_diag]
        cases d
        · exact absurd ⟨rfl, rfl⟩ e
        · rfl
      · exact triOf_inside hrc q
    rw [ht]
    exact (ex_mul E (x r) (a r c)).congr (fun h => ⟨h.1, h.2 hr⟩) rfl rfl

/-- A sum over a row that stops at, or starts from, the diagonal. -/
theorem ex_row (E : f.Grid N G) {before : Bool} {n i : ℕ} (hi : i < n) {s : CFP f R}
    {v : ℕ → CFP f R} {e : ℕ → ℂ} {w : ℕ → ℝ} {J : ℕ → Prop}
    (hin : ∀ k, k < n → (if before then k ≤ i else i ≤ k) → Ex N G (J k) (v k) (e k) (w k))
    (hout : ∀ k, k < n → ¬ (if before then k ≤ i else i ≤ k) → e k = 0 ∧ w k = 0) :
    Ex N G (s.On G ∧ ∀ k, k < n → (if before then k ≤ i else i ≤ k) → J k)
      (if before then StdBLAS.leftSum s (i + 1) v else StdBLAS.leftSum s (n - i) fun k => v (i + k))
      (s.val + ∑ k ∈ range n, e k) (size s.val + ∑ k ∈ range n, w k) := by
  cases before with
  | true =>
    simp only [if_true] at *
    rw [sum_lower hi _ fun k hk h => (hout k hk (by omega)).1,
      sum_lower hi _ fun k hk h => (hout k hk (by omega)).2]
    exact (Ex.leftSum E (ex_input s) fun k hk => hin k (by omega) (by omega)).congr
      (fun h => ⟨h.1, fun k hk => h.2 k (by omega) (by omega)⟩) rfl rfl
  | false =>
    simp only [Bool.false_eq_true, if_false] at *
    rw [sum_upper hi _ fun k hk => (hout k (by omega) (by omega)).1,
      sum_upper hi _ fun k hk => (hout k (by omega) (by omega)).2]
    exact (Ex.leftSum E (ex_input s) fun k hk => hin (i + k) (by omega) (by omega)).congr
      (fun h => ⟨h.1, fun k hk => h.2 _ (by omega) (by omega)⟩) rfl rfl

theorem ex_triSeq (E : f.Grid N (g₁ * g₂)) (t : Triangle) (d : Diag)
    (h1 : d = .implicitUnit → Multiple g₁ 1) {n : ℕ} (a : ℕ → ℕ → CFP f R)
    (x : ℕ → CFP f R) (s : CFP f R) {r : ℕ} (hr : r < n) :
    Ex N (g₁ * g₂)
      (s.On (g₁ * g₂) ∧ ∀ k, k < n → t.region r k →
        (x k).On g₂ ∧ (triRegion t d r k → (a r k).On g₁))
      (triSeq t d n a x s r)
      (s.val + ∑ k ∈ range n, triOf t d (fun i j => (a i j).val) r k * (x k).val)
      (size s.val + ∑ k ∈ range n, size (triOf t d (fun i j => (a i j).val) r k) * size (x k).val) := by
  have hterm : ∀ k, triTerm d a x r k = if d = .implicitUnit ∧ k = r then x k else a r k * x k := by
    intro k
    unfold triTerm
    by_cases h : d = .implicitUnit ∧ k = r
    · rw [if_pos h, if_pos h, h.2]
    · rw [if_neg h, if_neg h]
  have hout : ∀ k, ¬ t.region r k →
      triOf t d (fun i j => (a i j).val) r k * (x k).val = 0 ∧
      size (triOf t d (fun i j => (a i j).val) r k) * size (x k).val = 0 := by
    intro k hk
    rw [tri_out hk]
    simp [size_zero]
  cases t with
  | lower =>
    exact ex_row E (before := true) hr (v := fun k => triTerm d a x r k)
      (fun k hk q => ex_term E h1 (t := .lower) (d := d) (a := a) q (hterm k))
      (fun k _ q => hout k q)
  | upper =>
    exact ex_row E (before := false) hr (v := fun k => triTerm d a x r k)
      (fun k hk q => ex_term E h1 (t := .upper) (d := d) (a := a)
        (show r ≤ k by simpa using q) (hterm k))
      (fun k _ q => hout k (show ¬ r ≤ k by simpa using q))

/-- The in-place product: the diagonal term first, then the strict triangle, by increasing distance
from the diagonal. -/
theorem ex_inPlace (E : f.Grid N G) {before : Bool} {n i : ℕ} (hi : i < n) {s : CFP f R}
    {v : ℕ → CFP f R} {e : ℕ → ℂ} {w : ℕ → ℝ} {J : ℕ → Prop} (hs : Ex N G (J i) s (e i) (w i))
    (hin : ∀ k, k < n → (if before then k < i else i < k) → Ex N G (J k) (v k) (e k) (w k))
    (hout : ∀ k, k < n → ¬ (if before then k ≤ i else i ≤ k) → e k = 0 ∧ w k = 0) :
    Ex N G (∀ k, k < n → (if before then k ≤ i else i ≤ k) → J k)
      (if before then StdBLAS.leftSum s i fun k => v (i - 1 - k)
        else StdBLAS.leftSum s (n - 1 - i) fun k => v (i + 1 + k))
      (∑ k ∈ range n, e k) (∑ k ∈ range n, w k) := by
  cases before with
  | true =>
    simp only [if_true] at *
    rw [sum_lower hi _ fun k hk h => (hout k hk (by omega)).1,
      sum_lower hi _ fun k hk h => (hout k hk (by omega)).2, sum_range_succ, sum_range_succ,
      add_comm (∑ x ∈ range i, e x), add_comm (∑ x ∈ range i, w x), ← sum_range_reflect e i,
      ← sum_range_reflect w i]
    exact (Ex.leftSum E hs (J := fun k => J (i - 1 - k)) fun k hk =>
        hin (i - 1 - k) (by omega) (by omega)).congr
      (fun h => ⟨h i hi le_rfl, fun k hk => h _ (by omega) (by omega)⟩) rfl rfl
  | false =>
    simp only [Bool.false_eq_true, if_false] at *
    rw [sum_upper' hi _ fun k hk => (hout k (by omega) (by omega)).1,
      sum_upper' hi _ fun k hk => (hout k (by omega) (by omega)).2]
    exact (Ex.leftSum E hs (J := fun k => J (i + 1 + k)) fun k hk =>
        hin (i + 1 + k) (by omega) (by omega)).congr
      (fun h => ⟨h i hi le_rfl, fun k hk => h _ (by omega) (by omega)⟩) rfl rfl

/-- An element of a product with a triangular matrix. -/
theorem ex_triElement (E : f.Grid N G) {before : Bool} {d : Diag} {n i : ℕ} (hi : i < n)
    {s diag : CFP f R} {v : ℕ → CFP f R} {e : ℕ → ℂ} {w : ℕ → ℝ} {J : ℕ → Prop}
    (hd : Ex N G (J i) diag (e i) (w i))
    (hin : ∀ k, k < n → (if before then k < i else i < k) → Ex N G (J k) (v k) (e k) (w k))
    (hout : ∀ k, k < n → ¬ (if before then k ≤ i else i ≤ k) → e k = 0 ∧ w k = 0) :
    Ex N G (s.On G ∧ ∀ k, k < n → (if before then k ≤ i else i ≤ k) → J k)
      (triElement before d n i v diag s) (s.val + ∑ k ∈ range n, e k)
      (size s.val + ∑ k ∈ range n, w k) := by
  cases before with
  | true =>
    simp only [if_true] at *
    rw [sum_lower hi _ fun k hk h => (hout k hk (by omega)).1,
      sum_lower hi _ fun k hk h => (hout k hk (by omega)).2, sum_range_succ, sum_range_succ,
      ← add_assoc, ← add_assoc]
    unfold triElement
    exact ((Ex.leftSum E (ex_input s) (J := J) fun k hk => hin k (by omega) hk).add E hd).congr
      (fun h => ⟨⟨h.1, fun k hk => h.2 k (by omega) (by omega)⟩, h.2 i hi le_rfl⟩) rfl rfl
  | false =>
    simp only [Bool.false_eq_true, if_false] at *
    rw [sum_upper' hi _ fun k hk => (hout k (by omega) (by omega)).1,
      sum_upper' hi _ fun k hk => (hout k (by omega) (by omega)).2]
    cases d with
    | explicit =>
      unfold triElement
      rw [← add_assoc, ← add_assoc]
      exact (Ex.leftSum E ((ex_input s).add E hd) (J := fun k => J (i + 1 + k)) fun k hk =>
          hin (i + 1 + k) (by omega) (by omega)).congr
        (fun h => ⟨⟨h.1, h.2 i hi le_rfl⟩, fun k hk => h.2 _ (by omega) (by omega)⟩) rfl rfl
    | implicitUnit =>
      unfold triElement
      rw [add_comm (e i), add_comm (w i), ← add_assoc, ← add_assoc]
      exact ((Ex.leftSum E (ex_input s) (J := fun k => J (i + 1 + k)) fun k hk =>
          hin (i + 1 + k) (by omega) (by omega)).add E hd).congr
        (fun h => ⟨⟨h.1, fun k hk => h.2 _ (by omega) (by omega)⟩, h.2 i hi le_rfl⟩) rfl rfl

theorem ex_triSeqInPlace (E : f.Grid N (g₁ * g₂)) (t : Triangle) (d : Diag)
    (h1 : d = .implicitUnit → Multiple g₁ 1) {n : ℕ} (a : ℕ → ℕ → CFP f R)
    (x : ℕ → CFP f R) {r : ℕ} (hr : r < n) {s : CFP f R}
    (hs : (s = if d = .explicit then a r r * x r else x r) ∨
      s = if d = .explicit then x r * a r r else x r) :
    Ex N (g₁ * g₂)
      (∀ k, k < n → t.region r k → (x k).On g₂ ∧ (triRegion t d r k → (a r k).On g₁))
      (triSeqInPlace t n a x s r)
      (∑ k ∈ range n, triOf t d (fun i j => (a i j).val) r k * (x k).val)
      (∑ k ∈ range n, size (triOf t d (fun i j => (a i j).val) r k) * size (x k).val) := by
  have hrr : t.region r r := by cases t <;> exact le_refl r
  have hd : Ex N (g₁ * g₂) ((x r).On g₂ ∧ (triRegion t d r r → (a r r).On g₁)) s
      (triOf t d (fun i j => (a i j).val) r r * (x r).val)
      (size (triOf t d (fun i j => (a i j).val) r r) * size (x r).val) := by
    rcases hs with e | e
    · exact ex_term E h1 hrr (e.trans (diag_term d r _ _))
    · have := ex_term_right (g₁ := g₂) (g₂ := g₁) (mul_comm g₁ g₂ ▸ E) h1 hrr (a := a)
        (e.trans (diag_term d r _ _))
      rw [mul_comm g₂ g₁] at this
      exact this.congr id (mul_comm _ _) (mul_comm _ _)
  cases t with
  | lower =>
    exact ex_inPlace E (before := true) hr (v := fun k => a r k * x k) hd
      (fun k hk q => by
        have q' : k < r := by simpa using q
        exact ex_term E h1 (t := .lower) (d := d) (a := a) (show k ≤ r by omega)
          (by rw [if_neg (by omega)]))
      (fun k _ q => by rw [tri_out (t := .lower) q]; simp [size_zero])
  | upper =>
    exact ex_inPlace E (before := false) hr (v := fun k => a r k * x k) hd
      (fun k hk q => by
        have q' : r < k := by simpa using q
        exact ex_term E h1 (t := .upper) (d := d) (a := a) (show r ≤ k by omega)
          (by rw [if_neg (by omega)]))
      (fun k _ q => by rw [tri_out (t := .upper) (show ¬ r ≤ k by simpa using q)]; simp [size_zero])

theorem ex_triLeft (E : f.Grid N (g₁ * g₂)) (t : Triangle) (d : Diag)
    (h1 : d = .implicitUnit → Multiple g₁ 1) {n m : ℕ} (a : ℕ → ℕ → CFP f R)
    (x : ℕ → CFP f R) (s : CFP f R) (hm : m = n) {r : ℕ} (hr : r < n) :
    Ex N (g₁ * g₂)
      (s.On (g₁ * g₂) ∧ ∀ k, k < n → t.region r k →
        (x k).On g₂ ∧ (triRegion t d r k → (a r k).On g₁))
      (triElement (t = .lower) d m r (fun k => a r k * x k)
        (if d = .explicit then a r r * x r else x r) s)
      (s.val + ∑ k ∈ range n, triOf t d (fun i j => (a i j).val) r k * (x k).val)
      (size s.val + ∑ k ∈ range n, size (triOf t d (fun i j => (a i j).val) r k) * size (x k).val) := by
  subst hm
  cases t with
  | lower =>
    exact ex_triElement E (before := true) hr
      (ex_term E h1 (t := .lower) (a := a) (le_refl r) (diag_term d r _ _))
      (fun k hk q => by
        have q' : k < r := by simpa using q
        exact ex_term E h1 (t := .lower) (d := d) (a := a) (show k ≤ r by omega)
          (by rw [if_neg (by omega)]))
      (fun k _ q => by rw [tri_out (t := .lower) q]; simp [size_zero])
  | upper =>
    exact ex_triElement E (before := false) hr
      (ex_term E h1 (t := .upper) (a := a) (le_refl r) (diag_term d r _ _))
      (fun k hk q => by
        have q' : r < k := by simpa using q
        exact ex_term E h1 (t := .upper) (d := d) (a := a) (show r ≤ k by omega)
          (by rw [if_neg (by omega)]))
      (fun k _ q => by rw [tri_out (t := .upper) (show ¬ r ≤ k by simpa using q)]; simp [size_zero])

theorem ex_triRight (E : f.Grid N (g₁ * g₂)) (t : Triangle) (d : Diag)
    (h1 : d = .implicitUnit → Multiple g₂ 1) {n m : ℕ} (a : ℕ → ℕ → CFP f R)
    (x : ℕ → CFP f R) (s : CFP f R) (hm : m = n) {c : ℕ} (hc : c < n) :
    Ex N (g₁ * g₂)
      (s.On (g₁ * g₂) ∧ ∀ k, k < n → t.region k c →
        (x k).On g₁ ∧ (triRegion t d k c → (a k c).On g₂))
      (triElement (t = .upper) d m c (fun k => x k * a k c)
        (if d = .explicit then x c * a c c else x c) s)
      (s.val + ∑ k ∈ range n, (x k).val * triOf t d (fun i j => (a i j).val) k c)
      (size s.val + ∑ k ∈ range n, size (x k).val * size (triOf t d (fun i j => (a i j).val) k c)) := by
  subst hm
  cases t with
  | upper =>
    exact ex_triElement E (before := true) hc
      (ex_term_right E h1 (t := .upper) (a := a) (le_refl c) (diag_term d c _ _))
      (fun k hk q => by
        have q' : k < c := by simpa using q
        exact ex_term_right E h1 (t := .upper) (d := d) (a := a) (show k ≤ c by omega)
          (by rw [if_neg (by omega)]))
      (fun k _ q => by rw [tri_out (t := .upper) q]; simp [size_zero])
  | lower =>
    exact ex_triElement E (before := false) hc
      (ex_term_right E h1 (t := .lower) (a := a) (le_refl c) (diag_term d c _ _))
      (fun k hk q => by
        have q' : c < k := by simpa using q
        exact ex_term_right E h1 (t := .lower) (d := d) (a := a) (show c ≤ k by omega)
          (by rw [if_neg (by omega)]))
      (fun k _ q => by rw [tri_out (t := .lower) (show ¬ c ≤ k by simpa using q)]; simp [size_zero])

/-- The in-place product from the right: the diagonal term first, then the others in ascending
order. -/
theorem ex_triRightInPlace_upper (E : f.Grid N (g₁ * g₂)) (d : Diag)
    (h1 : d = .implicitUnit → Multiple g₂ 1) {n : ℕ} (a : ℕ → ℕ → CFP f R)
    (x : ℕ → CFP f R) {c : ℕ} (hc : c < n) :
    Ex N (g₁ * g₂)
      (∀ k, k < n → Triangle.upper.region k c →
        (x k).On g₁ ∧ (triRegion .upper d k c → (a k c).On g₂))
      (StdBLAS.leftSum (if d = .explicit then x c * a c c else x c) c fun k => x k * a k c)
      (∑ k ∈ range n, (x k).val * triOf .upper d (fun i j => (a i j).val) k c)
      (∑ k ∈ range n, size (x k).val * size (triOf .upper d (fun i j => (a i j).val) k c)) := by
  rw [sum_lower hc _ fun k hk h => by
      rw [tri_out (t := .upper) (show ¬ k ≤ c by omega), mul_zero],
    sum_lower hc _ fun k hk h => by
      rw [tri_out (t := .upper) (show ¬ k ≤ c by omega), size_zero, mul_zero],
    sum_range_succ, sum_range_succ, add_comm (∑ x_1 ∈ range c, _),
    add_comm (∑ x_1 ∈ range c, size _ * _)]
  have hs := ex_term_right E h1 (t := .upper) (a := a) (le_refl c)
    (diag_term d c (x c * a c c) (x c))
  exact (Ex.leftSum E hs fun k hk =>
      ex_term_right E h1 (t := .upper) (d := d) (a := a) (show k ≤ c by omega)
        (by rw [if_neg (by omega)])).congr
    (fun h => ⟨h c hc (le_refl c), fun k hk => h k (by omega) (show k ≤ c by omega)⟩) rfl rfl

theorem ex_triRightInPlace_lower (E : f.Grid N (g₁ * g₂)) (d : Diag)
    (h1 : d = .implicitUnit → Multiple g₂ 1) {n : ℕ} (a : ℕ → ℕ → CFP f R)
    (x : ℕ → CFP f R) {c : ℕ} (hc : c < n) :
    Ex N (g₁ * g₂)
      (∀ k, k < n → Triangle.lower.region k c →
        (x k).On g₁ ∧ (triRegion .lower d k c → (a k c).On g₂))
      (StdBLAS.leftSum (if d = .explicit then x c * a c c else x c) (n - 1 - c) fun k =>
        x (c + 1 + k) * a (c + 1 + k) c)
      (∑ k ∈ range n, (x k).val * triOf .lower d (fun i j => (a i j).val) k c)
      (∑ k ∈ range n, size (x k).val * size (triOf .lower d (fun i j => (a i j).val) k c)) :=
  ex_inPlace E (before := false) hc (v := fun k => x k * a k c)
    (ex_term_right E h1 (t := .lower) (a := a) (le_refl c) (diag_term d c _ _))
    (fun k hk q => by
      have q' : c < k := by simpa using q
      exact ex_term_right E h1 (t := .lower) (d := d) (a := a) (show c ≤ k by omega)
        (by rw [if_neg (by omega)]))
    (fun k _ q => by rw [tri_out (t := .lower) (show ¬ c ≤ k by simpa using q)]; simp [size_zero])

end Tri

/-! ## Substitution -/

theorem ex_solveRow [Div (CFP f R)] (E : f.Grid N (g₁ * g₂)) {t : Triangle}
    {d : Diag} {n i : ℕ}
    (hi : i < n) {term : ℕ → CFP f R} {b diag : CFP f R} {e : ℕ → ℂ} {w : ℕ → ℝ} {v : ℂ}
    (hb : b.On (g₁ * g₂)) (hin : ∀ k, k < n → t.region i k → k ≠ i →
      Ex N (g₁ * g₂) True (term k) (e k) (w k))
    (hout : ∀ k, k < n → ¬ t.region i k → e k = 0 ∧ w k = 0) (hw : 0 ≤ w i)
    (hfit : size b.val + ∑ k ∈ range n, w k ≤ N * (g₁ * g₂)) (hs : ∑ k ∈ range n, e k = b.val)
    (hd : d = .explicit → DividesExactly (· / ·) N g₂ diag ∧ e i = diag.val * v)
    (hd' : d = .implicitUnit → e i = v) (hv : GMul g₂ v) (hvN : size v ≤ N * g₂) :
    solveRow t d n i term b diag = fin v := by
  have key : ∃ s, s = fin (e i) ∧
      solveRow t d n i term b diag = if d = .explicit then s / diag else s := by
    cases t with
    | lower =>
      refine ⟨StdBLAS.leftDiff b i term, ?_, rfl⟩
      have h0 : ∀ k, k < n → i < k → ¬ Triangle.lower.region i k := fun k _ h h' =>
        absurd (show k ≤ i from h') (by omega)
      rw [sum_lower hi _ fun k hk h => (hout k hk (h0 k hk h)).1, sum_range_succ] at hs
      rw [sum_lower hi _ fun k hk h => (hout k hk (h0 k hk h)).2, sum_range_succ] at hfit
      have := (Ex.leftDiff E (ex_input b) (n := i) fun k hk =>
        hin k (by omega) (show k ≤ i by omega) (by omega)).exact ⟨hb, fun _ _ => trivial⟩ (by linarith)
      rw [show e i = b.val - ∑ k ∈ range i, e k by rw [← hs]; ring]
      exact this.1
    | upper =>
      refine ⟨StdBLAS.leftDiff b (n - 1 - i) fun k => term (i + 1 + k), ?_, rfl⟩
      have h0 : ∀ k, k < i → ¬ Triangle.upper.region i k := fun k h h' =>
        absurd (show i ≤ k from h') (by omega)
      rw [sum_upper' hi _ fun k hk => (hout k (by omega) (h0 k hk)).1] at hs
      rw [sum_upper' hi _ fun k hk => (hout k (by omega) (h0 k hk)).2] at hfit
      have := (Ex.leftDiff E (ex_input b) (n := n - 1 - i) (e := fun k => e (i + 1 + k))
        (w := fun k => w (i + 1 + k)) fun k hk =>
        hin (i + 1 + k) (by omega) (show i ≤ i + 1 + k by omega) (by omega)).exact
        ⟨hb, fun _ _ => trivial⟩ (by linarith)
      rw [show e i = b.val - ∑ k ∈ range (n - 1 - i), e (i + 1 + k) by rw [← hs]; ring]
      exact this.1
  obtain ⟨s, rfl, e0⟩ := key
  rw [e0]
  cases d with
  | implicitUnit => exact congrArg fin (hd' rfl)
  | explicit =>
    obtain ⟨h1, h3⟩ := hd rfl
    change fin (e i) / diag = _
    rw [h3]
    exact h1 v hv.1 hv.2 hvN

/-- A substitution recovers an exact solution. -/
theorem ex_solve [Div (CFP f R)] (E : f.Grid N (g₁ * g₂)) {t : Triangle}
    {d : Diag} {n : ℕ} {a : ℕ → ℕ → CFP f R} {b r : ℕ → CFP f R} {v : ℕ → ℂ}
    {term : ℕ → ℕ → CFP f R}
    (hterm : ∀ i k, Ex N (g₁ * g₂) ((a i k).On g₁ ∧ (r k).On g₂) (term i k)
      ((a i k).val * (r k).val) (size (a i k).val * size (r k).val))
    (hr : ∀ i, i < n → r i = solveRow t d n i (term i) (b i) (a i i))
    (ha : ∀ i, i < n → ∀ k, k < n → triRegion t d i k → (a i k).On g₁)
    (hb : ∀ i, i < n → (b i).On (g₁ * g₂)) (hv : ∀ i, i < n → GMul g₂ (v i))
    (hvN : ∀ i, i < n → size (v i) ≤ N * g₂)
    (hd : d = .explicit → ∀ i, i < n → DividesExactly (· / ·) N g₂ (a i i))
    (hs : ∀ i, i < n → ∑ k ∈ range n, triOf t d (fun i j => (a i j).val) i k * v k = (b i).val)
    (hfit : ∀ i, i < n → size (b i).val +
      ∑ k ∈ range n, size (triOf t d (fun i j => (a i j).val) i k) * size (v k) ≤ N * (g₁ * g₂)) :
    ∀ i, i < n → r i = fin (v i) := t.solve_induct fun i hi ih => by
  rw [hr i hi]
  refine ex_solveRow E hi (hb i hi) (fun k hk q hki => ?_) (fun k hk q => ?_)
    (mul_nonneg (size_nonneg _) (size_nonneg _)) (hfit i hi) (hs i hi) (fun q => ⟨hd q i hi, ?_⟩)
    (fun q => ?_) (hv i hi) (hvN i hi)
  · have := hterm i k
    rw [ih k hk hki q] at this
    rw [triOf_inside (Ne.symm hki) q]
    exact this.congr (fun _ => ⟨ha i hi k hk ⟨q, fun _ => Ne.symm hki⟩, hv k hk⟩) rfl rfl
  · rw [tri_out q]; simp [size_zero]
  · rw [triOf_diag, q]
  · rw [triOf_diag, q]; simp

/-- The division that rounds the exact quotient, by a number other than zero. -/
theorem roundedQuotient_exact (E : f.Grid N g₂) {d : CFP f R} (hd : d.Finite) (h0 : d.val ≠ 0) :
    DividesExactly roundedQuotient N g₂ d := by
  intro q h1 h2 hw
  unfold roundedQuotient
  rw [if_pos ⟨⟨trivial, trivial⟩, hd, h0⟩]
  have e : (fin (d.val * q) : CFP f R).val / d.val = q := by
    change d.val * q / d.val = q
    rw [mul_div_cancel_left₀ _ h0]
  rw [e, FP.ofReal_exact E h1 ((re_size q).trans hw), FP.ofReal_exact E h2 ((im_size q).trans hw)]
  rfl

/-! ## Sums of absolute values -/

theorem ex_absSum (E : f.Grid N G) (n : ℕ) (x : ℕ → CFP f R) (s : FP f) :
    FP.Ex N G (s.On G ∧ ∀ k, k < n → (x k).On G)
      (foldUp n (fun s k => s + FP.abs (x k).re + FP.abs (x k).im) s)
      (s.val + ∑ k ∈ range n, size (x k).val) (|s.val| + ∑ k ∈ range n, size (x k).val) := by
  induction n with
  | zero => exact (FP.ex_input s).congr (fun h => h.1) (by simp) (by simp)
  | succ n ih =>
    have c := (ih.add E (FP.ex_abs (x n).re)).add E (FP.ex_abs (x n).im)
    rw [sum_range_succ]
    refine c.congr ?_ ?_ ?_
    · exact fun h => ⟨⟨⟨h.1, fun k hk => h.2 k (by omega)⟩, (h.2 n (by omega)).1⟩, (h.2 n (by omega)).2⟩
    · rw [size, add_assoc, add_assoc]; rfl
    · rw [size, add_assoc, add_assoc]; rfl

end CFP
end StdBLAS

import Mathlib.Tactic.Linarith
import Verif.Spec.FloatExact
import Verif.Lemmas.Accurate
import Verif.Lemmas.KokkosAccurate
import Verif.Lemmas.IntSolve

/-! # Sums and products without rounding errors -/

namespace StdBLAS
open Finset

theorem Multiple.add {g x y : ℝ} (hx : Multiple g x) (hy : Multiple g y) : Multiple g (x + y) := by
  obtain ⟨j, rfl⟩ := hx
  obtain ⟨k, rfl⟩ := hy
  exact ⟨j + k, by push_cast; ring⟩

theorem Multiple.neg {g x : ℝ} (hx : Multiple g x) : Multiple g (-x) := by
  obtain ⟨j, rfl⟩ := hx
  exact ⟨-j, by push_cast; ring⟩

theorem Multiple.abs {g x : ℝ} (hx : Multiple g x) : Multiple g |x| := by
  rcases abs_choice x with h | h <;> rw [h]
  · exact hx
  · exact hx.neg

theorem Multiple.mul {g h x y : ℝ} (hx : Multiple g x) (hy : Multiple h y) :
    Multiple (g * h) (x * y) := by
  obtain ⟨j, rfl⟩ := hx
  obtain ⟨k, rfl⟩ := hy
  exact ⟨j * k, by push_cast; ring⟩

theorem Format.Grid.rep_of {f : Format} {N : ℕ} {G x : ℝ} (E : f.Grid N G) (hx : Multiple G x)
    (hw : |x| ≤ N * G) : f.Rep x := by
  obtain ⟨k, rfl⟩ := hx
  refine E.rep k ?_
  rw [abs_mul, abs_of_pos E.pos] at hw
  have := le_of_mul_le_mul_right hw E.pos
  exact_mod_cast this

namespace FP
variable {f : Format} {N : ℕ} {G g₁ g₂ : ℝ}

theorem On.val {g : ℝ} {a : FP f} (h : a.On g) : Multiple g a.val := by
  cases a <;> first | exact h | exact h.elim

theorem On.eq {g : ℝ} {a : FP f} (h : a.On g) : a = fin a.val := by
  cases a <;> first | rfl | exact h.elim

theorem ofReal_exact (E : f.Grid N G) {x : ℝ} (hx : Multiple G x) (hw : |x| ≤ N * G) :
    ofReal f x = fin x := by
  have h := E.rep_of hx hw
  rw [ofReal_fin (by rw [h.1]; exact h.2), h.1]

/-- What the induction over a sum carries along. -/
structure Ex (N : ℕ) (G : ℝ) (I : Prop) (r : FP f) (e w : ℝ) : Prop where
  abs_le : |e| ≤ w
  exact : I → w ≤ N * G → r = fin e ∧ Multiple G e

theorem Ex.toExact {I : Prop} {r : FP f} {e w : ℝ} (c : Ex N G I r e w) : Exact N G I r e w :=
  fun hI hw => (c.exact hI hw).1

theorem Ex.congr {I I' : Prop} {r : FP f} {e e' w w' : ℝ} (c : Ex N G I r e w) (hI : I' → I)
    (he : e' = e) (hw : w' = w) : Ex N G I' r e' w' := by
  subst he hw
  exact ⟨c.abs_le, fun h => c.exact (hI h)⟩

theorem ex_input (a : FP f) : Ex N G (a.On G) a a.val |a.val| :=
  ⟨le_rfl, fun h _ => ⟨h.eq, h.val⟩⟩

theorem ex_abs (a : FP f) : Ex N G (a.On G) (FP.abs a) |a.val| |a.val| := by
  refine ⟨by rw [_root_.abs_abs], fun h _ => ⟨?_, h.val.abs⟩⟩
  rw [h.eq]; rfl

theorem ex_mul (E : f.Grid N (g₁ * g₂)) (a b : FP f) :
    Ex N (g₁ * g₂) (a.On g₁ ∧ b.On g₂) (a * b) (a.val * b.val) (|a.val| * |b.val|) := by
  refine ⟨(abs_mul _ _).le, fun h hw => ⟨?_, h.1.val.mul h.2.val⟩⟩
  have e : a * b = ofReal f (a.val * b.val) := by
    conv_lhs => rw [h.1.eq, h.2.eq]
    rfl
  rw [e]
  exact ofReal_exact E (h.1.val.mul h.2.val) (by rw [abs_mul]; exact hw)

theorem Ex.add (E : f.Grid N G) {I I' : Prop} {a b : FP f} {e e' w w' : ℝ} (c : Ex N G I a e w)
    (c' : Ex N G I' b e' w') : Ex N G (I ∧ I') (a + b) (e + e') (w + w') := by
  have h0 : |e + e'| ≤ w + w' := (abs_add_le _ _).trans (add_le_add c.abs_le c'.abs_le)
  refine ⟨h0, fun h hw => ?_⟩
  have p := (abs_nonneg _).trans c.abs_le
  have p' := (abs_nonneg _).trans c'.abs_le
  obtain ⟨r1, m1⟩ := c.exact h.1 (by linarith)
  obtain ⟨r2, m2⟩ := c'.exact h.2 (by linarith)
  refine ⟨?_, m1.add m2⟩
  rw [r1, r2]
  exact ofReal_exact E (m1.add m2) (h0.trans hw)

theorem Ex.neg {I : Prop} {b : FP f} {e w : ℝ} (c : Ex N G I b e w) : Ex N G I (neg b) (-e) w := by
  refine ⟨by rw [abs_neg]; exact c.abs_le, fun h hw => ?_⟩
  obtain ⟨r, m⟩ := c.exact h hw
  rw [r]
  exact ⟨rfl, m.neg⟩

theorem Ex.sub (E : f.Grid N G) {I I' : Prop} {a b : FP f} {e e' w w' : ℝ} (c : Ex N G I a e w)
    (c' : Ex N G I' b e' w') : Ex N G (I ∧ I') (a - b) (e - e') (w + w') := by
  have := c.add E c'.neg
  rw [← sub_eq_add_neg] at this
  exact this

/-- A computed number times an input.  The computed number has to be exact by itself. -/
theorem Ex.mul_input (E : f.Grid N (G * g₂)) {I : Prop} {a b : FP f} {e w : ℝ}
    (c : Ex N G I a e w) :
    Ex N (G * g₂) (I ∧ w ≤ N * G ∧ b.On g₂) (a * b) (e * b.val) (w * |b.val|) := by
  have h0 : |e * b.val| ≤ w * |b.val| := by
    rw [abs_mul]; exact mul_le_mul_of_nonneg_right c.abs_le (abs_nonneg _)
  refine ⟨h0, fun h hw => ?_⟩
  obtain ⟨r, m⟩ := c.exact h.1 h.2.1
  refine ⟨?_, m.mul h.2.2.val⟩
  rw [r]
  conv_lhs => rw [h.2.2.eq]
  exact ofReal_exact E (m.mul h.2.2.val) (h0.trans hw)

theorem Ex.leftSum (E : f.Grid N G) {n : ℕ} {s : FP f} {t : ℕ → FP f} {S M : ℝ} {I : Prop}
    {e w : ℕ → ℝ} {J : ℕ → Prop} (c : Ex N G I s S M)
    (ct : ∀ k, k < n → Ex N G (J k) (t k) (e k) (w k)) :
    Ex N G (I ∧ ∀ k, k < n → J k) (leftSum s n t)
      (S + ∑ k ∈ range n, e k) (M + ∑ k ∈ range n, w k) := by
  induction n with
  | zero => exact c.congr (fun h => h.1) (by simp) (by simp)
  | succ n ih =>
    rw [sum_range_succ, sum_range_succ, ← add_assoc, ← add_assoc]
    exact ((ih fun k hk => ct k (by omega)).add E (ct n (by omega))).congr
      (fun h => ⟨⟨h.1, fun k hk => h.2 k (by omega)⟩, h.2 n (by omega)⟩) rfl rfl

theorem Ex.leftDiff (E : f.Grid N G) {n : ℕ} {s : FP f} {t : ℕ → FP f} {S M : ℝ} {I : Prop}
    {e w : ℕ → ℝ} {J : ℕ → Prop} (c : Ex N G I s S M)
    (ct : ∀ k, k < n → Ex N G (J k) (t k) (e k) (w k)) :
    Ex N G (I ∧ ∀ k, k < n → J k) (leftDiff s n t)
      (S - ∑ k ∈ range n, e k) (M + ∑ k ∈ range n, w k) := by
  induction n with
  | zero => exact c.congr (fun h => h.1) (by simp) (by simp)
  | succ n ih =>
    rw [sum_range_succ, sum_range_succ, ← sub_sub, ← add_assoc]
    exact ((ih fun k hk => ct k (by omega)).sub E (ct n (by omega))).congr
      (fun h => ⟨⟨h.1, fun k hk => h.2 k (by omega)⟩, h.2 n (by omega)⟩) rfl rfl

theorem Ex.from_zero {I : Prop} {r : FP f} {e w : ℝ}
    (c : Ex N G ((0 : FP f).On G ∧ I) r ((0 : FP f).val + e) (|(0 : FP f).val| + w)) :
    Ex N G I r e w :=
  c.congr (fun h => ⟨⟨0, by simp⟩, h⟩) (zero_add _).symm
    (by rw [show (0 : FP f).val = 0 from rfl, abs_zero, zero_add])

/-- A sum of `n` products of inputs. -/
theorem ex_products (E : f.Grid N (g₁ * g₂)) (n : ℕ) (x y : ℕ → FP f) (s : FP f) :
    Ex N (g₁ * g₂) (s.On (g₁ * g₂) ∧ ∀ k, k < n → (x k).On g₁ ∧ (y k).On g₂)
      (StdBLAS.leftSum s n fun k => x k * y k)
      (s.val + ∑ k ∈ range n, (x k).val * (y k).val)
      (|s.val| + ∑ k ∈ range n, |(x k).val| * |(y k).val|) :=
  Ex.leftSum E (ex_input s) fun k _ => ex_mul E (x k) (y k)

theorem ex_products_zero (E : f.Grid N (g₁ * g₂)) (n : ℕ) (x y : ℕ → FP f) :
    Ex N (g₁ * g₂) (∀ k, k < n → (x k).On g₁ ∧ (y k).On g₂)
      (StdBLAS.leftSum 0 n fun k => x k * y k)
      (∑ k ∈ range n, (x k).val * (y k).val) (∑ k ∈ range n, |(x k).val| * |(y k).val|) :=
  (ex_products E n x y 0).from_zero

/-! ## Triangular matrices -/

section Tri
variable {t : Triangle} {d : Diag} {a : ℕ → ℕ → FP f} {x : ℕ → FP f}

/-- A term of a row of a triangular product. -/
theorem ex_term (E : f.Grid N (g₁ * g₂)) (h1 : d = .implicitUnit → Multiple g₁ 1) {r c : ℕ}
    (q : t.region r c) {v : FP f}
    (hv : v = if d = .implicitUnit ∧ c = r then x c else a r c * x c) :
    Ex N (g₁ * g₂) ((x c).On g₂ ∧ (triRegion t d r c → (a r c).On g₁)) v
      (triOf t d (fun i j => (a i j).val) r c * (x c).val)
      (|triOf t d (fun i j => (a i j).val) r c| * |(x c).val|) := by
  subst hv
  by_cases e : d = .implicitUnit ∧ c = r
  · obtain ⟨rfl, rfl⟩ := e
    rw [if_pos ⟨rfl, rfl⟩, triOf_diag]
    change Ex _ _ _ _ (1 * _) (|1| * _)
    rw [one_mul, abs_one, one_mul]
    refine ⟨le_rfl, fun h _ => ⟨h.1.eq, ?_⟩⟩
    have := (h1 rfl).mul h.1.val
    rwa [one_mul] at this
  · rw [if_neg e]
    have hr : triRegion t d r c := ⟨q, fun hd hrc => e ⟨hd, hrc.symm⟩⟩
    have ht : triOf t d (fun i j => (a i j).val) r c = (a r c).val := by
      by_cases hrc : r = c
      · subst hrc
        rw [triOf_diag]
        cases d
        · exact absurd ⟨rfl, rfl⟩ e
        · rfl
      · exact triOf_inside hrc q
    rw [ht]
    exact (ex_mul E (a r c) (x c)).congr (fun h => ⟨h.2 hr, h.1⟩) rfl rfl

/-- The same with the factors in the other order. -/
theorem ex_term_right (E : f.Grid N (g₁ * g₂)) (h1 : d = .implicitUnit → Multiple g₂ 1) {r c : ℕ}
    (q : t.region r c) {v : FP f}
    (hv : v = if d = .implicitUnit ∧ r = c then x r else x r * a r c) :
    Ex N (g₁ * g₂) ((x r).On g₁ ∧ (triRegion t d r c → (a r c).On g₂)) v
      ((x r).val * triOf t d (fun i j => (a i j).val) r c)
      (|(x r).val| * |triOf t d (fun i j => (a i j).val) r c|) := by
  subst hv
  by_cases e : d = .implicitUnit ∧ r = c
  · obtain ⟨rfl, rfl⟩ := e
    rw [if_pos ⟨rfl, rfl⟩, triOf_diag]
    change Ex _ _ _ _ (_ * 1) (_ * |1|)
    rw [mul_one, abs_one, mul_one]
    refine ⟨le_rfl, fun h _ => ⟨h.1.eq, ?_⟩⟩
    have := h.1.val.mul (h1 rfl)
    rwa [mul_one] at this
  · rw [if_neg e]
    have hr : triRegion t d r c := ⟨q, fun hd hrc => e ⟨hd, hrc⟩⟩
    have ht : triOf t d (fun i j => (a i j).val) r c = (a r c).val := by
      by_cases hrc : r = c
      · subst hrc
        rw [triOf_diag]
        cases d
        · exact absurd ⟨rfl, rfl⟩ e
        · rfl
      · exact triOf_inside hrc q
    rw [ht]
    exact (ex_mul E (x r) (a r c)).congr (fun h => ⟨h.1, h.2 hr⟩) rfl rfl

/-- A sum over a row that stops at, or starts from, the diagonal. -/
theorem ex_row (E : f.Grid N G) {before : Bool} {n i : ℕ} (hi : i < n) {s : FP f}
    {v : ℕ → FP f} {e w : ℕ → ℝ} {J : ℕ → Prop}
    (hin : ∀ k, k < n → (if before then k ≤ i else i ≤ k) → Ex N G (J k) (v k) (e k) (w k))
    (hout : ∀ k, k < n → ¬ (if before then k ≤ i else i ≤ k) → e k = 0 ∧ w k = 0) :
    Ex N G (s.On G ∧ ∀ k, k < n → (if before then k ≤ i else i ≤ k) → J k)
      (if before then StdBLAS.leftSum s (i + 1) v else StdBLAS.leftSum s (n - i) fun k => v (i + k))
      (s.val + ∑ k ∈ range n, e k) (|s.val| + ∑ k ∈ range n, w k) := by
  cases before with
  | true =>
    simp only [if_true] at *
    rw [sum_lower hi _ fun k hk h => (hout k hk (by omega)).1,
      sum_lower hi _ fun k hk h => (hout k hk (by omega)).2]
    exact (Ex.leftSum E (ex_input s) fun k hk => hin k (by omega) (by omega)).congr
      (fun h => ⟨h.1, fun k hk => h.2 k (by omega) (by omega)⟩) rfl rfl
  | false =>
    simp only [Bool.false_eq_true, if_false] at *
    rw [sum_upper hi _ fun k hk => (hout k (by omega) (by omega)).1,
      sum_upper hi _ fun k hk => (hout k (by omega) (by omega)).2]
    exact (Ex.leftSum E (ex_input s) fun k hk => hin (i + k) (by omega) (by omega)).congr
      (fun h => ⟨h.1, fun k hk => h.2 _ (by omega) (by omega)⟩) rfl rfl

theorem ex_triSeq (E : f.Grid N (g₁ * g₂)) (t : Triangle) (d : Diag)
    (h1 : d = .implicitUnit → Multiple g₁ 1) {n : ℕ} (a : ℕ → ℕ → FP f)
    (x : ℕ → FP f) (s : FP f) {r : ℕ} (hr : r < n) :
    Ex N (g₁ * g₂)
      (s.On (g₁ * g₂) ∧ ∀ k, k < n → t.region r k →
        (x k).On g₂ ∧ (triRegion t d r k → (a r k).On g₁))
      (triSeq t d n a x s r)
      (s.val + ∑ k ∈ range n, triOf t d (fun i j => (a i j).val) r k * (x k).val)
      (|s.val| + ∑ k ∈ range n, |triOf t d (fun i j => (a i j).val) r k| * |(x k).val|) := by
  have hterm : ∀ k, triTerm d a x r k = if d = .implicitUnit ∧ k = r then x k else a r k * x k := by
    intro k
    unfold triTerm
    by_cases h : d = .implicitUnit ∧ k = r
    · rw [if_pos h, if_pos h, h.2]
    · rw [if_neg h, if_neg h]
  have hout : ∀ k, ¬ t.region r k →
      triOf t d (fun i j => (a i j).val) r k * (x k).val = 0 ∧
      |triOf t d (fun i j => (a i j).val) r k| * |(x k).val| = 0 := by
    intro k hk
    rw [tri_out hk]
    simp
  cases t with
  | lower =>
    exact ex_row E (before := true) hr (v := fun k => triTerm d a x r k)
      (fun k hk q => ex_term E h1 (t := .lower) (d := d) (a := a) q (hterm k))
      (fun k _ q => hout k q)
  | upper =>
    exact ex_row E (before := false) hr (v := fun k => triTerm d a x r k)
      (fun k hk q => ex_term E h1 (t := .upper) (d := d) (a := a)
        (show r ≤ k by simpa using q) (hterm k))
      (fun k _ q => hout k (show ¬ r ≤ k by simpa using q))

/-- The in-place product: the diagonal term first, then the strict triangle, by increasing distance
from the diagonal. -/
theorem ex_inPlace (E : f.Grid N G) {before : Bool} {n i : ℕ} (hi : i < n) {s : FP f}
    {v : ℕ → FP f} {e w : ℕ → ℝ} {J : ℕ → Prop} (hs : Ex N G (J i) s (e i) (w i))
    (hin : ∀ k, k < n → (if before then k < i else i < k) → Ex N G (J k) (v k) (e k) (w k))
    (hout : ∀ k, k < n → ¬ (if before then k ≤ i else i ≤ k) → e k = 0 ∧ w k = 0) :
    Ex N G (∀ k, k < n → (if before then k ≤ i else i ≤ k) → J k)
      (if before then StdBLAS.leftSum s i fun k => v (i - 1 - k)
        else StdBLAS.leftSum s (n - 1 - i) fun k => v (i + 1 + k))
      (∑ k ∈ range n, e k) (∑ k ∈ range n, w k) := by
  cases before with
  | true =>
    simp only [if_true] at *
    rw [sum_lower hi _ fun k hk h => (hout k hk (by omega)).1,
      sum_lower hi _ fun k hk h => (hout k hk (by omega)).2, sum_range_succ, sum_range_succ,
      add_comm (∑ x ∈ range i, e x), add_comm (∑ x ∈ range i, w x), ← sum_range_reflect e i,
      ← sum_range_reflect w i]
    exact (Ex.leftSum E hs (J := fun k => J (i - 1 - k)) fun k hk =>
        hin (i - 1 - k) (by omega) (by omega)).congr
      (fun h => ⟨h i hi le_rfl, fun k hk => h _ (by omega) (by omega)⟩) rfl rfl
  | false =>
    simp only [Bool.false_eq_true, if_false] at *
    rw [sum_upper' hi _ fun k hk => (hout k (by omega) (by omega)).1,
      sum_upper' hi _ fun k hk => (hout k (by omega) (by omega)).2]
    exact (Ex.leftSum E hs (J := fun k => J (i + 1 + k)) fun k hk =>
        hin (i + 1 + k) (by omega) (by omega)).congr
      (fun h => ⟨h i hi le_rfl, fun k hk => h _ (by omega) (by omega)⟩) rfl rfl

/-- An element of a product with a triangular matrix. -/
theorem ex_triElement (E : f.Grid N G) {before : Bool} {d : Diag} {n i : ℕ} (hi : i < n)
    {s diag : FP f} {v : ℕ → FP f} {e w : ℕ → ℝ} {J : ℕ → Prop}
    (hd : Ex N G (J i) diag (e i) (w i))
    (hin : ∀ k, k < n → (if before then k < i else i < k) → Ex N G (J k) (v k) (e k) (w k))
    (hout : ∀ k, k < n → ¬ (if before then k ≤ i else i ≤ k) → e k = 0 ∧ w k = 0) :
    Ex N G (s.On G ∧ ∀ k, k < n → (if before then k ≤ i else i ≤ k) → J k)
      (triElement before d n i v diag s) (s.val + ∑ k ∈ range n, e k)
      (|s.val| + ∑ k ∈ range n, w k) := by
  cases before with
  | true =>
    simp only [if_true] at *
    rw [sum_lower hi _ fun k hk h => (hout k hk (by omega)).1,
      sum_lower hi _ fun k hk h => (hout k hk (by omega)).2, sum_range_succ, sum_range_succ,
      ← add_assoc, ← add_assoc]
    unfold triElement
    exact ((Ex.leftSum E (ex_input s) (J := J) fun k hk => hin k (by omega) hk).add E hd).congr
      (fun h => ⟨⟨h.1, fun k hk => h.2 k (by omega) (by omega)⟩, h.2 i hi le_rfl⟩) rfl rfl
  | false =>
    simp only [Bool.false_eq_true, if_false] at *
    rw [sum_upper' hi _ fun k hk => (hout k (by omega) (by omega)).1,
      sum_upper' hi _ fun k hk => (hout k (by omega) (by omega)).2]
    cases d with
    | explicit =>
      unfold triElement
      rw [← add_assoc, ← add_assoc]
      exact (Ex.leftSum E ((ex_input s).add E hd) (J := fun k => J (i + 1 + k)) fun k hk =>
          hin (i + 1 + k) (by omega) (by omega)).congr
        (fun h => ⟨⟨h.1, h.2 i hi le_rfl⟩, fun k hk => h.2 _ (by omega) (by omega)⟩) rfl rfl
    | implicitUnit =>
      unfold triElement
      rw [add_comm (e i), add_comm (w i), ← add_assoc, ← add_assoc]
      exact ((Ex.leftSum E (ex_input s) (J := fun k => J (i + 1 + k)) fun k hk =>
          hin (i + 1 + k) (by omega) (by omega)).add E hd).congr
        (fun h => ⟨⟨h.1, fun k hk => h.2 _ (by omega) (by omega)⟩, h.2 i hi le_rfl⟩) rfl rfl

theorem ex_triSeqInPlace (E : f.Grid N (g₁ * g₂)) (t : Triangle) (d : Diag)
    (h1 : d = .implicitUnit → Multiple g₁ 1) {n : ℕ} (a : ℕ → ℕ → FP f)
    (x : ℕ → FP f) {r : ℕ} (hr : r < n) {s : FP f}
    (hs : s = if d = .explicit then a r r * x r else x r) :
    Ex N (g₁ * g₂)
      (∀ k, k < n → t.region r k → (x k).On g₂ ∧ (triRegion t d r k → (a r k).On g₁))
      (triSeqInPlace t n a x s r)
      (∑ k ∈ range n, triOf t d (fun i j => (a i j).val) r k * (x k).val)
      (∑ k ∈ range n, |triOf t d (fun i j => (a i j).val) r k| * |(x k).val|) := by
  rw [diag_term d r] at hs
  cases t with
  | lower =>
    exact ex_inPlace E (before := true) hr (v := fun k => a r k * x k)
      (ex_term E h1 (t := .lower) (a := a) (le_refl r) hs)
      (fun k hk q => by
        have q' : k < r := by simpa using q
        exact ex_term E h1 (t := .lower) (d := d) (a := a) (show k ≤ r by omega)
          (by rw [if_neg (by omega)]))
      (fun k _ q => by rw [tri_out (t := .lower) q]; simp)
  | upper =>
    exact ex_inPlace E (before := false) hr (v := fun k => a r k * x k)
      (ex_term E h1 (t := .upper) (a := a) (le_refl r) hs)
      (fun k hk q => by
        have q' : r < k := by simpa using q
        exact ex_term E h1 (t := .upper) (d := d) (a := a) (show r ≤ k by omega)
          (by rw [if_neg (by omega)]))
      (fun k _ q => by rw [tri_out (t := .upper) (show ¬ r ≤ k by simpa using q)]; simp)

theorem ex_triLeft (E : f.Grid N (g₁ * g₂)) (t : Triangle) (d : Diag)
    (h1 : d = .implicitUnit → Multiple g₁ 1) {n m : ℕ} (a : ℕ → ℕ → FP f)
    (x : ℕ → FP f) (s : FP f) (hm : m = n) {r : ℕ} (hr : r < n) :
    Ex N (g₁ * g₂)
      (s.On (g₁ * g₂) ∧ ∀ k, k < n → t.region r k →
        (x k).On g₂ ∧ (triRegion t d r k → (a r k).On g₁))
      (triElement (t = .lower) d m r (fun k => a r k * x k)
        (if d = .explicit then a r r * x r else x r) s)
      (s.val + ∑ k ∈ range n, triOf t d (fun i j => (a i j).val) r k * (x k).val)
      (|s.val| + ∑ k ∈ range n, |triOf t d (fun i j => (a i j).val) r k| * |(x k).val|) := by
  subst hm
  cases t with
  | lower =>
    exact ex_triElement E (before := true) hr
      (ex_term E h1 (t := .lower) (a := a) (le_refl r) (diag_term d r _ _))
      (fun k hk q => by
        have q' : k < r := by simpa using q
        exact ex_term E h1 (t := .lower) (d := d) (a := a) (show k ≤ r by omega)
          (by rw [if_neg (by omega)]))
      (fun k _ q => by rw [tri_out (t := .lower) q]; simp)
  | upper =>
    exact ex_triElement E (before := false) hr
      (ex_term E h1 (t := .upper) (a := a) (le_refl r) (diag_term d r _ _))
      (fun k hk q => by
        have q' : r < k := by simpa using q
        exact ex_term E h1 (t := .upper) (d := d) (a := a) (show r ≤ k by omega)
          (by rw [if_neg (by omega)]))
      (fun k _ q => by rw [tri_out (t := .upper) (show ¬ r ≤ k by simpa using q)]; simp)

theorem ex_triRight (E : f.Grid N (g₁ * g₂)) (t : Triangle) (d : Diag)
    (h1 : d = .implicitUnit → Multiple g₂ 1) {n m : ℕ} (a : ℕ → ℕ → FP f)
    (x : ℕ → FP f) (s : FP f) (hm : m = n) {c : ℕ} (hc : c < n) :
    Ex N (g₁ * g₂)
      (s.On (g₁ * g₂) ∧ ∀ k, k < n → t.region k c →
        (x k).On g₁ ∧ (triRegion t d k c → (a k c).On g₂))
      (triElement (t = .upper) d m c (fun k => x k * a k c)
        (if d = .explicit then x c * a c c else x c) s)
      (s.val + ∑ k ∈ range n, (x k).val * triOf t d (fun i j => (a i j).val) k c)
      (|s.val| + ∑ k ∈ range n, |(x k).val| * |triOf t d (fun i j => (a i j).val) k c|) := by
  subst hm
  cases t with
  | upper =>
    exact ex_triElement E (before := true) hc
      (ex_term_right E h1 (t := .upper) (a := a) (le_refl c) (diag_term d c _ _))
      (fun k hk q => by
        have q' : k < c := by simpa using q
        exact ex_term_right E h1 (t := .upper) (d := d) (a := a) (show k ≤ c by omega)
          (by rw [if_neg (by omega)]))
      (fun k _ q => by rw [tri_out (t := .upper) q]; simp)
  | lower =>
    exact ex_triElement E (before := false) hc
      (ex_term_right E h1 (t := .lower) (a := a) (le_refl c) (diag_term d c _ _))
      (fun k hk q => by
        have q' : c < k := by simpa using q
        exact ex_term_right E h1 (t := .lower) (d := d) (a := a) (show c ≤ k by omega)
          (by rw [if_neg (by omega)]))
      (fun k _ q => by rw [tri_out (t := .lower) (show ¬ c ≤ k by simpa using q)]; simp)

/-- The in-place product from the right: the diagonal term first, then the others in ascending
order. -/
theorem ex_triRightInPlace_upper (E : f.Grid N (g₁ * g₂)) (d : Diag)
    (h1 : d = .implicitUnit → Multiple g₂ 1) {n : ℕ} (a : ℕ → ℕ → FP f)
    (x : ℕ → FP f) {c : ℕ} (hc : c < n) :
    Ex N (g₁ * g₂)
      (∀ k, k < n → Triangle.upper.region k c →
        (x k).On g₁ ∧ (triRegion .upper d k c → (a k c).On g₂))
      (StdBLAS.leftSum (if d = .explicit then x c * a c c else x c) c fun k => x k * a k c)
      (∑ k ∈ range n, (x k).val * triOf .upper d (fun i j => (a i j).val) k c)
      (∑ k ∈ range n, |(x k).val| * |triOf .upper d (fun i j => (a i j).val) k c|) := by
  rw [sum_lower hc _ fun k hk h => by
      rw [tri_out (t := .upper) (show ¬ k ≤ c by omega), mul_zero],
    sum_lower hc _ fun k hk h => by
      rw [tri_out (t := .upper) (show ¬ k ≤ c by omega), abs_zero, mul_zero],
    sum_range_succ, sum_range_succ, add_comm (∑ x_1 ∈ range c, _),
    add_comm (∑ x_1 ∈ range c, |_| * _)]
  have hs := ex_term_right E h1 (t := .upper) (a := a) (le_refl c)
    (diag_term d c (x c * a c c) (x c))
  exact (Ex.leftSum E hs fun k hk =>
      ex_term_right E h1 (t := .upper) (d := d) (a := a) (show k ≤ c by omega)
        (by rw [if_neg (by omega)])).congr
    (fun h => ⟨h c hc (le_refl c), fun k hk => h k (by omega) (show k ≤ c by omega)⟩) rfl rfl

theorem ex_triRightInPlace_lower (E : f.Grid N (g₁ * g₂)) (d : Diag)
    (h1 : d = .implicitUnit → Multiple g₂ 1) {n : ℕ} (a : ℕ → ℕ → FP f)
    (x : ℕ → FP f) {c : ℕ} (hc : c < n) :
    Ex N (g₁ * g₂)
      (∀ k, k < n → Triangle.lower.region k c →
        (x k).On g₁ ∧ (triRegion .lower d k c → (a k c).On g₂))
      (StdBLAS.leftSum (if d = .explicit then x c * a c c else x c) (n - 1 - c) fun k =>
        x (c + 1 + k) * a (c + 1 + k) c)
      (∑ k ∈ range n, (x k).val * triOf .lower d (fun i j => (a i j).val) k c)
      (∑ k ∈ range n, |(x k).val| * |triOf .lower d (fun i j => (a i j).val) k c|) :=
  ex_inPlace E (before := false) hc (v := fun k => x k * a k c)
    (ex_term_right E h1 (t := .lower) (a := a) (le_refl c) (diag_term d c _ _))
    (fun k hk q => by
      have q' : c < k := by simpa using q
      exact ex_term_right E h1 (t := .lower) (d := d) (a := a) (show c ≤ k by omega)
        (by rw [if_neg (by omega)]))
    (fun k _ q => by rw [tri_out (t := .lower) (show ¬ c ≤ k by simpa using q)]; simp)

end Tri

/-! ## Substitution -/

theorem ex_solveRow (E : f.Grid N (g₁ * g₂)) (E2 : f.Grid N g₂) {t : Triangle} {d : Diag} {n i : ℕ}
    (hi : i < n) {term : ℕ → FP f} {b diag : FP f} {e w : ℕ → ℝ} {v : ℝ}
    (hb : b.On (g₁ * g₂)) (hin : ∀ k, k < n → t.region i k → k ≠ i →
      Ex N (g₁ * g₂) True (term k) (e k) (w k))
    (hout : ∀ k, k < n → ¬ t.region i k → e k = 0 ∧ w k = 0) (hw : 0 ≤ w i)
    (hfit : |b.val| + ∑ k ∈ range n, w k ≤ N * (g₁ * g₂)) (hs : ∑ k ∈ range n, e k = b.val)
    (hd : d = .explicit → diag.On g₁ ∧ diag.val ≠ 0 ∧ e i = diag.val * v)
    (hd' : d = .implicitUnit → e i = v) (hv : Multiple g₂ v) (hvN : |v| ≤ N * g₂) :
    solveRow t d n i term b diag = fin v := by
  have key : ∃ s, s = fin (e i) ∧
      solveRow t d n i term b diag = if d = .explicit then s / diag else s := by
    cases t with
    | lower =>
      refine ⟨StdBLAS.leftDiff b i term, ?_, rfl⟩
      have h0 : ∀ k, k < n → i < k → ¬ Triangle.lower.region i k := fun k _ h h' =>
        absurd (show k ≤ i from h') (by omega)
      rw [sum_lower hi _ fun k hk h => (hout k hk (h0 k hk h)).1, sum_range_succ] at hs
      rw [sum_lower hi _ fun k hk h => (hout k hk (h0 k hk h)).2, sum_range_succ] at hfit
      have := (Ex.leftDiff E (ex_input b) (n := i) fun k hk =>
        hin k (by omega) (show k ≤ i by omega) (by omega)).exact ⟨hb, fun _ _ => trivial⟩ (by linarith)
      rw [show e i = b.val - ∑ k ∈ range i, e k by linarith]
      exact this.1
    | upper =>
      refine ⟨StdBLAS.leftDiff b (n - 1 - i) fun k => term (i + 1 + k), ?_, rfl⟩
      have h0 : ∀ k, k < i → ¬ Triangle.upper.region i k := fun k h h' =>
        absurd (show i ≤ k from h') (by omega)
      rw [sum_upper' hi _ fun k hk => (hout k (by omega) (h0 k hk)).1] at hs
      rw [sum_upper' hi _ fun k hk => (hout k (by omega) (h0 k hk)).2] at hfit
      have := (Ex.leftDiff E (ex_input b) (n := n - 1 - i) (e := fun k => e (i + 1 + k))
        (w := fun k => w (i + 1 + k)) fun k hk =>
        hin (i + 1 + k) (by omega) (show i ≤ i + 1 + k by omega) (by omega)).exact
        ⟨hb, fun _ _ => trivial⟩ (by linarith)
      rw [show e i = b.val - ∑ k ∈ range (n - 1 - i), e (i + 1 + k) by linarith]
      exact this.1
  obtain ⟨s, rfl, e0⟩ := key
  rw [e0]
  cases d with
  | implicitUnit => exact congrArg fin (hd' rfl)
  | explicit =>
    obtain ⟨h1, h2, h3⟩ := hd rfl
    change fin (e i) / diag = _
    rw [h1.eq]
    change FP.div _ _ = _
    simp only [FP.div, if_neg h2]
    rw [h3, mul_div_cancel_left₀ _ h2]
    exact ofReal_exact E2 hv hvN

/-- A substitution recovers an exact solution. -/
theorem ex_solve (E : f.Grid N (g₁ * g₂)) (E2 : f.Grid N g₂) {t : Triangle} {d : Diag} {n : ℕ}
    {a : ℕ → ℕ → FP f} {b r : ℕ → FP f} {v : ℕ → ℝ}
    (hr : ∀ i, i < n → r i = solveRow t d n i (fun k => a i k * r k) (b i) (a i i))
    (ha : ∀ i, i < n → ∀ k, k < n → triRegion t d i k → (a i k).On g₁)
    (hb : ∀ i, i < n → (b i).On (g₁ * g₂)) (hv : ∀ i, i < n → Multiple g₂ (v i))
    (hvN : ∀ i, i < n → |v i| ≤ N * g₂) (hd : d = .explicit → ∀ i, i < n → (a i i).val ≠ 0)
    (hs : ∀ i, i < n → ∑ k ∈ range n, triOf t d (fun i j => (a i j).val) i k * v k = (b i).val)
    (hfit : ∀ i, i < n → |(b i).val| +
      ∑ k ∈ range n, |triOf t d (fun i j => (a i j).val) i k| * |v k| ≤ N * (g₁ * g₂)) :
    ∀ i, i < n → r i = fin (v i) := t.solve_induct fun i hi ih => by
  rw [hr i hi]
  refine ex_solveRow E E2 hi (hb i hi) (fun k hk q hki => ?_) (fun k hk q => ?_)
    (by positivity) (hfit i hi) (hs i hi) (fun q => ⟨?_, hd q i hi, ?_⟩) (fun q => ?_) (hv i hi)
    (hvN i hi)
  · rw [triOf_inside (Ne.symm hki) q, ih k hk hki q]
    exact (ex_mul E (a i k) (fin (v k))).congr
      (fun _ => ⟨ha i hi k hk ⟨q, fun _ => Ne.symm hki⟩, hv k hk⟩) rfl rfl
  · rw [tri_out q]; simp
  · exact ha i hi i hi ⟨by cases t <;> exact le_refl i, fun h => by rw [q] at h; cases h⟩
  · rw [triOf_diag, q]
  · rw [triOf_diag, q]; simp

/-! ## Absolute values -/

theorem ex_abs_sum (E : f.Grid N G) (n : ℕ) (x : ℕ → FP f) (s : FP f) :
    Ex N G (s.On G ∧ ∀ k, k < n → (x k).On G)
      (foldUp n (fun s k => s + FP.abs (x k)) s)
      (s.val + ∑ k ∈ range n, |(x k).val|) (|s.val| + ∑ k ∈ range n, |(x k).val|) := by
  have e : foldUp n (fun s k => s + FP.abs (x k)) s = StdBLAS.leftSum s n fun k => FP.abs (x k) := by
    induction n with
    | zero => rfl
    | succ n ih => exact congrArg (· + FP.abs (x n)) ih
  rw [e]
  exact Ex.leftSum E (ex_input s) fun k _ => ex_abs (x k)

/-- The largest of some numbers. -/
theorem foldUp_max {m : ℕ} (S : ℕ → ℝ) (h0 : ∀ i, i < m → 0 ≤ S i) {M : ℝ} (hm : 0 < m)
    (hM : IsGreatest {y | ∃ i, i < m ∧ y = S i} M) :
    foldUp m (fun r i => stdMax (fin (S i) : FP f) r) 0 = fin M := by
  have key : ∀ k, k ≤ m → ∃ M, foldUp k (fun r i => stdMax (fin (S i)) r) (0 : FP f) = fin M ∧
      (M = 0 ∨ ∃ i, i < k ∧ M = S i) ∧ 0 ≤ M ∧ ∀ i, i < k → S i ≤ M := by
    intro k
    induction k with
    | zero => exact fun _ => ⟨0, rfl, .inl rfl, le_rfl, fun i hi => absurd hi (Nat.not_lt_zero i)⟩
    | succ k ih =>
      intro hk
      obtain ⟨M, e, hM, hM0, hle⟩ := ih (by omega)
      change ∃ M', stdMax (fin (S k)) (foldUp k (fun r i => stdMax (fin (S i)) r) 0) = fin M' ∧ _
      rw [e]
      by_cases hlt : S k < M
      · refine ⟨M, if_pos (decide_eq_true hlt), hM.imp id fun ⟨i, hi, e⟩ => ⟨i, by omega, e⟩, hM0,
          fun i hi => ?_⟩
        rcases Nat.lt_succ_iff_lt_or_eq.1 hi with hi | rfl
        · exact hle i hi
        · exact hlt.le
      · refine ⟨S k, if_neg fun h => hlt (of_decide_eq_true h), .inr ⟨k, by omega, rfl⟩, h0 k (by omega), fun i hi => ?_⟩
        rcases Nat.lt_succ_iff_lt_or_eq.1 hi with hi | rfl
        · exact (hle i hi).trans (not_lt.1 hlt)
        · exact le_rfl
  obtain ⟨M', e, hM1, hM2, hle⟩ := key m le_rfl
  rw [e]
  congr 1
  refine le_antisymm ?_ ?_
  · rcases hM1 with rfl | ⟨i, hi, rfl⟩
    · exact (h0 0 hm).trans (hM.2 ⟨0, hm, rfl⟩)
    · exact hM.2 ⟨i, hi, rfl⟩
  · obtain ⟨i, hi, rfl⟩ := hM.1
    exact hle i hi

end FP
end StdBLAS

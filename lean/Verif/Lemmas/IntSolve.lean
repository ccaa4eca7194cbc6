import Verif.Lemmas.IntElements

/-! # Substitution with integer elements -/

namespace StdBLAS
open Finset

/-- Induction along the order of a substitution. -/
theorem Triangle.solve_induct (t : Triangle) {n : ℕ} {P : ℕ → Prop}
    (step : ∀ i, i < n → (∀ k, k < n → k ≠ i → t.region i k → P k) → P i) : ∀ i, i < n → P i := by
  cases t with
  | lower =>
    intro i
    induction i using Nat.strong_induction_on with
    | _ i ih =>
      exact fun hi => step i hi fun k hk hki (hr : k ≤ i) => ih k (by omega) hk
  | upper =>
    have : ∀ m i, n - i = m → i < n → P i := by
      intro m
      induction m using Nat.strong_induction_on with
      | _ m ih =>
        exact fun i hm hi => step i hi fun k hk hki (hr : i ≤ k) => ih (n - k) (by omega) k rfl hk
    exact fun i => this _ i rfl

/-- The sum over the off-diagonal part of a row of a triangle. -/
def rowRest (t : Triangle) (n i : ℕ) (p : ℕ → ℤ) : ℤ :=
  match t with
  | .lower => ∑ k ∈ range i, p k
  | .upper => ∑ k ∈ range (n - 1 - i), p (i + 1 + k)

theorem sum_triOf_row {t : Triangle} {d : Diag} {n i : ℕ} (hi : i < n) (a : ℕ → ℕ → ℤ)
    (g : ℕ → ℤ → ℤ) (hg : ∀ k, g k 0 = 0) :
    ∑ k ∈ range n, g k (triOf t d a i k) =
      g i (triOf t d a i i) + rowRest t n i fun k => g k (a i k) := by
  unfold rowRest
  cases t with
  | lower =>
    rw [sum_lower hi _ fun k hk h => by
      rw [triOf_outside (by omega) (fun h => by have : k ≤ i := h; omega), hg], sum_range_succ,
      add_comm]
    refine congrArg₂ _ rfl (sum_congr rfl fun k hk => ?_)
    rw [mem_range] at hk
    rw [triOf_inside (t := .lower) (by omega) (show k ≤ i by omega)]
  | upper =>
    rw [sum_upper' hi _ fun k hk => by
      rw [triOf_outside (by omega) (fun h => by have : i ≤ k := h; omega), hg]]
    refine congrArg₂ _ rfl (sum_congr rfl fun k hk => ?_)
    rw [triOf_inside (t := .upper) (by omega) (show i ≤ i + 1 + k by omega)]

theorem mulVec_rowRest {t : Triangle} {d : Diag} {n i : ℕ} (hi : i < n) (a : ℕ → ℕ → ℤ) (v : ℕ → ℤ) :
    mulVec n (triOf t d a) v i = triOf t d a i i * v i + rowRest t n i fun k => a i k * v k :=
  sum_triOf_row hi a (fun k z => z * v k) fun _ => zero_mul _

namespace CInt
open CTy

theorem mul_comm' (p q : CInt) : p * q = q * p := by
  show CInt.op _ p q = CInt.op _ q p
  unfold CInt.op
  rw [common_comm]
  cases p.val <;> cases q.val <;> dsimp only
  rw [Int.mul_comm]

/-- The accumulated row of a substitution (part of `solveRowAs`). -/
def solveRest (s : CTy) (t : Triangle) (n i : ℕ) (term : ℕ → CInt) (bv : CInt) : CInt :=
  match t with
  | .lower => leftDiffAs s (MixedOps.conv s bv) i term
  | .upper => leftDiffAs s (MixedOps.conv s bv) (n - 1 - i) fun k => term (i + 1 + k)

theorem solveRowAs_rest (s x : CTy) (t : Triangle) (d : Diag) (n i : ℕ) (term : ℕ → CInt)
    (bv diag : CInt) : solveRowAs s x t d n i term bv diag =
      MixedOps.conv x (if d = .explicit then solveRest s t n i term bv / diag
        else solveRest s t n i term bv) := rfl

theorem solveRest_exact {s tp : CTy} (hs : s.signed) (htp : tp.signed) {t : Triangle} {n i : ℕ}
    (hi : i < n) {p : ℕ → ℤ} {b : ℤ} {bv : CInt} {term : ℕ → CInt}
    (hb : MixedOps.conv s bv = ofInt s b)
    (hterm : ∀ k, k < n → k ≠ i → t.region i k → term k = ofInt tp (p k))
    (hp : ∀ k, k < n → k ≠ i → t.region i k → tp.Fits (p k))
    (hsum : |b| + rowRest t n i (fun k => |p k|) ≤ s.max) :
    solveRest s t n i term bv = ofInt s (b - rowRest t n i p) := by
  unfold solveRest
  have congr : ∀ {m : ℕ} {f g : ℕ → CInt} (z : CInt), (∀ k < m, f k = g k) →
      leftDiffAs s z m f = leftDiffAs s z m g := by
    intro m f g z e
    induction m with
    | zero => rfl
    | succ m ih => rw [leftDiffAs, leftDiffAs, ih fun k hk => e k (by omega), e m (by omega)]
  rw [hb]
  cases t with
  | lower =>
    dsimp only
    rw [congr _ fun k hk => hterm k (by omega) (by omega) (show k ≤ i by omega)]
    exact leftDiffAs_exact hs htp (fun k hk => hp k (by omega) (by omega) (show k ≤ i by omega)) hsum
  | upper =>
    dsimp only
    rw [congr _ fun k hk => hterm (i + 1 + k) (by omega) (by omega) (show i ≤ i + 1 + k by omega)]
    exact leftDiffAs_exact hs htp
      (fun k hk => hp (i + 1 + k) (by omega) (by omega) (show i ≤ i + 1 + k by omega)) hsum

/-- A row of a substitution whose exact solution is an integer that fits. -/
theorem solveRowAs_exact {s x tA tp : CTy} (hs : s.signed) (htA : tA.signed)
    (htp : tp.signed) {t : Triangle} {d : Diag} {n i : ℕ} (hi : i < n) {a : ℕ → ℕ → ℤ} {v : ℕ → ℤ}
    {b : ℤ} {bv diag : CInt} {term : ℕ → CInt} (hb : MixedOps.conv s bv = ofInt s b)
    (hdiag : d = .explicit → diag = ofInt tA (a i i) ∧ tA.Fits (a i i) ∧ a i i ≠ 0)
    (hterm : ∀ k, k < n → k ≠ i → t.region i k → term k = ofInt tp (a i k * v k))
    (hp : ∀ k, k < n → k ≠ i → t.region i k → tp.Fits (a i k * v k))
    (hsum : |b| + ∑ k ∈ range n, |triOf t d a i k * v k| ≤ s.max) (hvs : s.Fits (v i))
    (heq : mulVec n (triOf t d a) v i = b) :
    solveRowAs s x t d n i term bv diag = ofInt x (v i) := by
  rw [sum_triOf_row hi a (fun k z => |z * v k|) fun k => by rw [zero_mul, abs_zero]] at hsum
  rw [mulVec_rowRest hi] at heq
  have nn := abs_nonneg (triOf t d a i i * v i)
  have nb := abs_nonneg b
  have hrest := solveRest_exact hs htp hi hb hterm hp (by linarith)
  rw [solveRowAs_rest, hrest, show b - rowRest t n i (fun k => a i k * v k) = triOf t d a i i * v i by linarith]
  cases d with
  | implicitUnit =>
    rw [if_neg (by decide), triOf_diag]
    dsimp only
    rw [one_mul, conv_exact hvs]
  | explicit =>
    obtain ⟨e, hf, h0⟩ := hdiag rfl
    rw [if_pos rfl, e, triOf_diag]
    rw [triOf_diag] at nn hsum
    dsimp only at nn hsum ⊢
    have rn : 0 ≤ rowRest t n i (fun k => |a i k * v k|) := by
      unfold rowRest; cases t <;> exact sum_nonneg fun _ _ => abs_nonneg _
    have e2 : (a i i * v i).tdiv (a i i) = v i := Int.mul_tdiv_cancel_left _ h0
    have hf2 : (s.common tA).Fits (v i) := fits_common (.inl ⟨hs, htA⟩) hvs
    rw [div_exact (.inl ⟨hs, htA⟩) (fits_of_abs (.inl hs) (by linarith)) hf h0 (by rwa [e2]), e2,
      conv_exact hf2]

theorem leftSumAs_congr {t : CTy} {z : CInt} {m : ℕ} {f g : ℕ → CInt} (e : ∀ k < m, f k = g k) :
    leftSumAs t z m f = leftSumAs t z m g := by
  induction m with
  | zero => rfl
  | succ m ih => rw [leftSumAs, leftSumAs, ih fun k hk => e k (by omega), e m (by omega)]

/-- A sum of products without overflow. -/
theorem products_exact {t c₁ c₂ : CTy} {s : ℤ} {a b : ℕ → ℤ} {n : ℕ}
    (hsign : (c₁.signed ∧ c₂.signed ∧ t.signed) ∨ (0 ≤ s ∧ ∀ k < n, 0 ≤ a k ∧ 0 ≤ b k))
    (ha : ∀ k < n, c₁.Fits (a k)) (hb : ∀ k < n, c₂.Fits (b k))
    (hp : ∀ k < n, |a k * b k| ≤ (c₁.common c₂).max)
    (hsum : |s| + ∑ k ∈ range n, |a k * b k| ≤ t.max) :
    leftSumAs t (ofInt t s) n (fun k => ofInt c₁ (a k) * ofInt c₂ (b k)) =
      ofInt t (s + ∑ k ∈ range n, a k * b k) := by
  have hpl : ∀ k < n, Plain c₁ c₂ (a k) (b k) := fun k hk =>
    hsign.imp (fun q => ⟨q.1, q.2.1⟩) fun q => q.2 k hk
  rw [leftSumAs_congr fun k hk => mul_exact (hpl k hk) (ha k hk) (hb k hk) (hp k hk)]
  refine leftSumAs_exact (hsign.imp (fun q => ⟨q.2.2, common_signed q.1 q.2.1⟩)
    fun q => ⟨q.1, fun k hk => mul_nonneg (q.2 k hk).1 (q.2 k hk).2⟩)
    (fun k hk => (hpl k hk).fits mul_nonneg (hp k hk)) hsum

/-- The type of `abs_if_needed` of a value. -/
def absTy (t : CTy) : CTy := if t.signed then t.promote else t

theorem abs_exact {t : CTy} {z : ℤ} (h : t.Fits z) (hz : |z| ≤ t.promote.max) :
    MixedMag.abs (ofInt t z) = ofInt (absTy t) |z| ∧ (absTy t).Fits |z| := by
  show CInt.abs (ofInt t z) = _ ∧ _
  unfold CInt.abs absTy
  by_cases q : t.signed
  · rw [if_pos q, if_pos (show (ofInt t z).ty.signed = true from q)]
    have hf : t.promote.Fits |z| := fits_of_abs (.inr (abs_nonneg z)) (by rwa [abs_abs])
    refine ⟨?_, hf⟩
    show ofExact t.promote |t.wrap z| = _
    rw [wrap_of_fits h, ofExact_fits hf]
  · rw [if_neg q, if_neg (show ¬ (ofInt t z).ty.signed = true from q)]
    have : 0 ≤ z := by
      revert h; revert q; cases t <;> simp [CTy.signed, CTy.Fits, CTy.min] <;> omega
    rw [abs_of_nonneg this]
    exact ⟨rfl, h⟩

/-- A substitution in signed types finds the integer solution `v`. -/
theorem exact_solves {s x tA tB : CTy} (hs : s.signed) (hsA : tA.signed) (hsX : x.signed)
    {t : Triangle} {d : Diag} {n : ℕ} {a : ℕ → ℕ → ℤ} {b v : ℕ → ℤ} {w : ℕ → CInt}
    (hw : ∀ i, i < n → w i = solveRowAs s x t d n i (fun k => ofInt tA (a i k) * w k)
      (ofInt tB (b i)) (ofInt tA (a i i)))
    (hsolves : ∀ i, i < n → mulVec n (triOf t d a) v i = b i)
    (hdiag : d = .explicit → ∀ i, i < n → a i i ≠ 0)
    (ha : ∀ i, i < n → ∀ k, k < n → tA.Fits (triOf t d a i k))
    (hb : ∀ i, i < n → tB.Fits (b i)) (hv : ∀ i, i < n → x.Fits (v i))
    (hvs : ∀ i, i < n → s.Fits (v i))
    (hp : ∀ i, i < n → ∀ k, k < n → |triOf t d a i k * v k| ≤ (tA.common x).max)
    (hsum : ∀ i, i < n → |b i| + ∑ k ∈ range n, |triOf t d a i k * v k| ≤ s.max) :
    ∀ i, i < n → w i = ofInt x (v i) := t.solve_induct fun i hi ih => by
  rw [hw i hi]
  have hsC := common_signed hsA hsX
  have hin : ∀ k, k ≠ i → t.region i k → triOf t d a i k = a i k := fun k q r =>
    triOf_inside (Ne.symm q) r
  refine solveRowAs_exact (v := v) hs hsA hsC hi (conv_exact (hb i hi))
    (fun q => ⟨rfl, ?_, hdiag q i hi⟩) (fun k hk q r => ?_) (fun k hk q r => ?_) (hsum i hi)
    (hvs i hi) (hsolves i hi)
  · have := ha i hi i hi
    rwa [triOf_diag, q] at this
  · rw [ih k hk q r, mul_exact (.inl ⟨hsA, hsX⟩) (by rw [← hin k q r]; exact ha i hi k hk) (hv k hk)
      (by rw [← hin k q r]; exact hp i hi k hk)]
  · rw [← hin k q r]; exact fits_of_abs (.inl hsC) (hp i hi k hk)

theorem fits_sumTy {tA tB x : CTy} (hsA : tA.signed) (hsB : tB.signed) (hsX : x.signed) {z : ℤ}
    (h : x.Fits z) : (tB.common (tA.common x)).Fits z := by
  rw [common_comm]
  refine fits_common (.inl ⟨common_signed hsA hsX, hsB⟩) ?_
  rw [common_comm]
  exact fits_common (.inl ⟨hsX, hsA⟩) h

theorem triOf_other {α : Type} [Zero α] [One α] (t : Triangle) (d : Diag) (a : ℕ → ℕ → α) (i j : ℕ) :
    triOf t.other d (fun i j => a j i) i j = triOf t d a j i := by
  unfold triOf
  by_cases e : i = j
  · subst e; rw [if_pos rfl, if_pos rfl]
  · rw [if_neg e, if_neg (Ne.symm e)]
    have : t.other.region i j ↔ t.region j i := by cases t <;> exact Iff.rfl
    by_cases q : t.region j i
    · rw [if_pos q, if_pos (this.2 q)]
    · rw [if_neg q, if_neg fun r => q (this.1 r)]

/-! ## Unsigned types of at least 32 bits: a ring -/

theorem wide_sub {t : CTy} (h : CTy.Wide t) (a b : ℤ) : ofInt t a - ofInt t b = ofInt t (a - b) := by
  have : ofInt t a - ofInt t b = ofInt t (t.wrap (t.wrap a) - t.wrap (t.wrap b)) := by
    rcases h with e | e <;> subst e <;> rfl
  rw [this, wrap_wrap, wrap_wrap]
  exact ofInt_congr ((t.wrap_modEq a).sub (t.wrap_modEq b))

theorem wide_mul {t : CTy} (h : CTy.Wide t) (a b : ℤ) : ofInt t a * ofInt t b = ofInt t (a * b) := by
  have : ofInt t a * ofInt t b = ofInt t (t.wrap (t.wrap a) * t.wrap (t.wrap b)) := by
    rcases h with e | e <;> subst e <;> rfl
  rw [this, wrap_wrap, wrap_wrap]
  exact ofInt_congr ((t.wrap_modEq a).mul (t.wrap_modEq b))

theorem wide_leftDiffAs {t : CTy} (h : CTy.Wide t) (s : ℤ) {n : ℕ} {f : ℕ → CInt} {p : ℕ → ℤ}
    (hf : ∀ k < n, f k = ofInt t (p k)) :
    leftDiffAs t (ofInt t s) n f = ofInt t (s - ∑ k ∈ range n, p k) := by
  induction n with
  | zero => simp [leftDiffAs]
  | succ n ih =>
    rw [leftDiffAs, ih fun k hk => hf k (by omega), hf n (by omega), wide_sub h, conv_ofInt,
      sum_range_succ, sub_sub]

theorem wide_solveRowAs {c : CTy} (h : CTy.Wide c) {t : Triangle} {n i : ℕ} (hi : i < n)
    {p : ℕ → ℤ} {b : ℤ} {diag : CInt} {term : ℕ → CInt}
    (hterm : ∀ k, k < n → k ≠ i → t.region i k → term k = ofInt c (p k)) :
    solveRowAs c c t .implicitUnit n i term (ofInt c b) diag = ofInt c (b - rowRest t n i p) := by
  unfold solveRowAs rowRest
  cases t with
  | lower =>
    dsimp only
    rw [if_neg (by decide), conv_ofInt,
      wide_leftDiffAs h b fun k hk => hterm k (by omega) (by omega) (show k ≤ i by omega), conv_ofInt]
  | upper =>
    dsimp only
    rw [if_neg (by decide), conv_ofInt, wide_leftDiffAs h b fun k hk =>
      hterm (i + 1 + k) (by omega) (by omega) (show i ≤ i + 1 + k by omega), conv_ofInt]

/-- A substitution with unit diagonal solves the system modulo `2 ^ bits`. -/
theorem wide_solves {c : CTy} (h : CTy.Wide c) {t : Triangle} {n : ℕ} {a : ℕ → ℕ → ℤ} {b : ℕ → ℤ}
    {v : ℕ → CInt} {av : ℕ → ℕ → CInt} {diag : ℕ → CInt}
    (hav : ∀ i k, i < n → k < n → k ≠ i → t.region i k → av i k = ofInt c (a i k))
    (hv : ∀ i, i < n → v i = solveRowAs c c t .implicitUnit n i (fun k => av i k * v k)
      (ofInt c (b i)) (diag i)) :
    ∃ w : ℕ → ℤ, (∀ i, i < n → v i = ofInt c (w i)) ∧
      ∀ i, i < n → mulVec n (triOf t .implicitUnit a) w i ≡ b i [ZMOD 2 ^ c.bits] := by
  have key : ∀ i, i < n → ∃ z, v i = ofInt c z := t.solve_induct fun i hi ih => by
    have e : ∀ k, ∃ z, k < n → k ≠ i → t.region i k → v k = ofInt c z := fun k => by
      by_cases q : k < n ∧ k ≠ i ∧ t.region i k
      · obtain ⟨z, hz⟩ := ih k q.1 q.2.1 q.2.2
        exact ⟨z, fun _ _ _ => hz⟩
      · exact ⟨0, fun a b c => absurd ⟨a, b, c⟩ q⟩
    obtain ⟨w, hw⟩ := Classical.skolem.mp e
    refine ⟨_, (hv i hi).trans (wide_solveRowAs h hi (p := fun k => a i k * w k) fun k hk q r => ?_)⟩
    rw [hav i k hi hk q r, hw k hk q r, wide_mul h]
  have key' : ∀ i, ∃ z, i < n → v i = ofInt c z := fun i => by
    by_cases q : i < n
    · obtain ⟨z, hz⟩ := key i q; exact ⟨z, fun _ => hz⟩
    · exact ⟨0, fun q' => absurd q' q⟩
  obtain ⟨w, hw⟩ := Classical.skolem.mp key'
  refine ⟨w, hw, fun i hi => ?_⟩
  have e := hv i hi
  rw [hw i hi, wide_solveRowAs h hi (p := fun k => a i k * w k) fun k hk q r => by
    rw [hav i k hi hk q r, hw k hk, wide_mul h]] at e
  have e' : w i ≡ b i - rowRest t n i (fun k => a i k * w k) [ZMOD 2 ^ c.bits] :=
    (c.wrap_modEq _).symm.trans
      (.trans (by rw [Option.some.inj (congrArg CInt.val e)]) (c.wrap_modEq _))
  rw [mulVec_rowRest hi, triOf_diag]
  dsimp only
  rw [one_mul]
  simpa using e'.add_right (rowRest t n i fun k => a i k * w k)

end CInt
end StdBLAS

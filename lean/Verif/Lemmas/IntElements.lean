import Verif.Spec.IntElements
import Verif.Lemmas.MixedExact
import Verif.Lemmas.RoundingSeq
import Mathlib.Data.Int.ModEq
import Mathlib.Tactic.Linarith
import Mathlib.Tactic.NormNum
import Mathlib.Tactic.Ring
import Mathlib.Tactic.IntervalCases

/-! # Arithmetic on integer elements -/

namespace StdBLAS
open Finset

namespace CTy

theorem wrap_modEq (t : CTy) (z : ℤ) : t.wrap z ≡ z [ZMOD 2 ^ t.bits] := by
  unfold wrap
  split
  · exact Int.bmod_emod
  · exact Int.mod_modEq ..

theorem wrap_eq {t : CTy} {x y : ℤ} (h : x ≡ y [ZMOD 2 ^ t.bits]) : t.wrap x = t.wrap y := by
  unfold wrap
  split
  · have h' : x % ((2 ^ t.bits : ℕ) : ℤ) = y % ((2 ^ t.bits : ℕ) : ℤ) := by push_cast; exact h
    rw [Int.bmod_def, Int.bmod_def, h']
  · exact h

theorem wrap_wrap (t : CTy) (z : ℤ) : t.wrap (t.wrap z) = t.wrap z := wrap_of_fits (t.wrap_fits z)

/-- The largest magnitude of a value. -/
def mag (t : CTy) : ℤ := if t.signed then 2 ^ (t.bits - 1) else 2 ^ t.bits - 1

theorem abs_le_mag {t : CTy} {z : ℤ} (h : t.Fits z) : |z| ≤ t.mag := by
  rw [abs_le]; revert h
  cases t <;> simp only [Fits, min, max, mag, signed, bits, if_true, Bool.false_eq_true, if_false] <;>
    omega

theorem fits_of_abs {t : CTy} {z : ℤ} (hs : t.signed ∨ 0 ≤ z) (h : |z| ≤ t.max) : t.Fits z := by
  rw [abs_le] at h; revert h hs
  cases t <;> simp only [Fits, min, max, signed, bits, if_true, Bool.false_eq_true, if_false,
    true_or, forall_true_left, false_or] <;> omega

theorem common_self (t : CTy) : t.common t = t.promote := by cases t <;> rfl
theorem common_promote (t : CTy) : t.common t.promote = t.promote := by cases t <;> rfl
theorem promote_common (t : CTy) : t.promote.common t = t.promote := by cases t <;> rfl
theorem promote_promote (t : CTy) : t.promote.promote = t.promote := by cases t <;> rfl
theorem bits_le_promote (t : CTy) : t.bits ≤ t.promote.bits := by cases t <;> decide

theorem fits_promote {t : CTy} {z : ℤ} (h : t.Fits z) : t.promote.Fits z := by
  revert h
  cases t <;> simp only [Fits, promote, min, max, signed, bits, if_true, Bool.false_eq_true, if_false] <;>
    omega

/-- A value keeps its meaning in the common type if both types are signed or it is not negative. -/
theorem fits_common {s t : CTy} {z : ℤ} (hs : (s.signed ∧ t.signed) ∨ 0 ≤ z) (h : s.Fits z) :
    (s.common t).Fits z := by
  revert h hs
  cases s <;> cases t <;> simp [Fits, common, min, max, signed, bits] <;> omega

theorem common_comm (s t : CTy) : s.common t = t.common s := by cases s <;> cases t <;> rfl

theorem common_signed {s t : CTy} (hs : s.signed) (ht : t.signed) : (s.common t).signed := by
  revert hs ht; cases s <;> cases t <;> decide

end CTy

namespace CInt
open CTy

theorem ofInt_congr {t : CTy} {x y : ℤ} (h : x ≡ y [ZMOD 2 ^ t.bits]) : ofInt t x = ofInt t y :=
  CInt.ext rfl (congrArg some (wrap_eq h))

theorem ofInt_wrap (t : CTy) (z : ℤ) : ofInt t (t.wrap z) = ofInt t z := ofInt_congr (t.wrap_modEq z)

theorem conv_ofInt (t : CTy) (z : ℤ) : MixedOps.conv t (ofInt t z) = ofInt t z := ofInt_wrap t z

/-- `v` is of type `t` or of the promoted type and equals `z` modulo `2 ^ bits`; if the promoted type
is signed, its magnitude is at most `B`. -/
def Near (t : CTy) (B : ℤ) (v : CInt) (z : ℤ) : Prop :=
  (v.ty = t ∨ v.ty = t.promote) ∧
    ∃ w, v.val = some w ∧ w ≡ z [ZMOD 2 ^ t.bits] ∧ (t.promote.signed → |w| ≤ B)

theorem near_ofInt (t : CTy) (z : ℤ) : Near t t.mag (ofInt t z) z :=
  ⟨.inl rfl, _, rfl, t.wrap_modEq z, fun _ => abs_le_mag (t.wrap_fits z)⟩

theorem Near.common {t : CTy} {B B' : ℤ} {v v' : CInt} {z z' : ℤ} (h : Near t B v z)
    (h' : Near t B' v' z') : v.ty.common v'.ty = t.promote := by
  rcases h.1 with e | e <;> rcases h'.1 with e' | e' <;>
    simp only [e, e', common_self, common_promote, promote_common, promote_promote]

theorem Near.wrap {t : CTy} {w : ℤ} {v : CInt} (hty : v.ty = t ∨ v.ty = t.promote)
    (hv : v.val = some w) : t.promote.wrap w = w := by
  have := v.fits w hv
  refine wrap_of_fits ?_
  rcases hty with e | e
  · rw [e] at this; exact fits_promote this
  · rwa [e] at this

/-- An operation on values near their integers. -/
theorem Near.op {t : CTy} {B B' C : ℤ} {v v' : CInt} {z z' : ℤ} {g : ℤ → ℤ → ℤ}
    (hg : ∀ {m x y x' y' : ℤ}, x ≡ x' [ZMOD m] → y ≡ y' [ZMOD m] → g x y ≡ g x' y' [ZMOD m])
    (h : Near t B v z) (h' : Near t B' v' z')
    (hB : ∀ x y, |x| ≤ B → |y| ≤ B' → |g x y| ≤ C) (hC : t.promote.signed → C ≤ t.promote.max) :
    Near t C (CInt.op (fun c x y => ofExact c (g x y)) v v') (g z z') := by
  have hc := h.common h'
  obtain ⟨hty, w, hw, hm, hb⟩ := h
  obtain ⟨hty', w', hw', hm', hb'⟩ := h'
  have e : CInt.op (fun c x y => ofExact c (g x y)) v v' = ofExact t.promote (g w w') := by
    unfold CInt.op
    simp only [hw, hw', hc, Near.wrap hty hw, Near.wrap hty' hw']
  rw [e]
  have dv : (2 : ℤ) ^ t.bits ∣ 2 ^ t.promote.bits := pow_dvd_pow 2 (bits_le_promote t)
  refine ⟨.inr (ty_ofExact ..), t.promote.wrap (g w w'), ?_, ?_, fun hs => ?_⟩
  · unfold ofExact
    rw [if_neg]
    · rfl
    · rintro ⟨hs, hf⟩
      exact hf (fits_of_abs (.inl hs) ((hB _ _ (hb hs) (hb' hs)).trans (hC hs)))
  · exact ((t.promote.wrap_modEq _).of_dvd dv).trans (hg hm hm')
  · have := hB _ _ (hb hs) (hb' hs)
    rwa [wrap_of_fits (fits_of_abs (.inl hs) (this.trans (hC hs)))]

theorem Near.add {t : CTy} {B B' : ℤ} {v v' : CInt} {z z' : ℤ}
    (h : Near t B v z) (h' : Near t B' v' z') (hC : t.promote.signed → B + B' ≤ t.promote.max) :
    Near t (B + B') (v + v') (z + z') :=
  Near.op (g := (· + ·)) (fun a b => a.add b) h h'
    (fun _ _ a b => (abs_add_le ..).trans (add_le_add a b)) hC

theorem Near.sub {t : CTy} {B B' : ℤ} {v v' : CInt} {z z' : ℤ}
    (h : Near t B v z) (h' : Near t B' v' z') (hC : t.promote.signed → B + B' ≤ t.promote.max) :
    Near t (B + B') (v - v') (z - z') :=
  Near.op (g := (· - ·)) (fun a b => a.sub b) h h'
    (fun _ _ a b => (abs_sub ..).trans (add_le_add a b)) hC

theorem Near.mul {t : CTy} {B B' : ℤ} {v v' : CInt} {z z' : ℤ}
    (h : Near t B v z) (h' : Near t B' v' z') (hC : t.promote.signed → B * B' ≤ t.promote.max) :
    Near t (B * B') (v * v') (z * z') :=
  Near.op (g := (· * ·)) (fun a b => a.mul b) h h'
    (fun _ _ a b => by
      rw [abs_mul]; exact mul_le_mul a b (abs_nonneg _) ((abs_nonneg _).trans a)) hC

theorem Near.conv {t : CTy} {B : ℤ} {v : CInt} {z : ℤ} (h : Near t B v z) :
    MixedOps.conv t v = ofInt t z := by
  obtain ⟨_, w, hw, hm, _⟩ := h
  show cast t v = _
  unfold cast
  rw [hw]
  exact ofInt_congr hm

/-- Adding `v` to a variable of type `t` adds `z` modulo `2 ^ bits`. -/
def Term (t : CTy) (v : CInt) (z : ℤ) : Prop :=
  ∀ s, MixedOps.conv t (ofInt t s + v) = ofInt t (s + z)

theorem Near.term {t : CTy} {B : ℤ} {v : CInt} {z : ℤ} (h : Near t B v z)
    (hC : t.promote.signed → t.mag + B ≤ t.promote.max) : Term t v z :=
  fun s => ((near_ofInt t s).add h hC).conv

theorem Term.leftSumAs {t : CTy} {v : ℕ → CInt} {z : ℕ → ℤ} {n : ℕ} (s : ℤ)
    (h : ∀ k < n, Term t (v k) (z k)) :
    leftSumAs t (ofInt t s) n v = ofInt t (s + ∑ k ∈ range n, z k) := by
  induction n with
  | zero => simp [StdBLAS.leftSumAs]
  | succ n ih =>
    rw [StdBLAS.leftSumAs, ih fun k hk => h k (by omega), h n (by omega), sum_range_succ, add_assoc]

theorem Safe3.safe {t : CTy} (h : t.Safe3) : t.Safe := by
  unfold Safe3 at h; unfold Safe; tauto

theorem term_one {t : CTy} (h : t.Safe) (a : ℤ) : Term t (ofInt t a) a :=
  (near_ofInt t a).term (by rcases h with e | e | e | e | e <;> subst e <;> decide)

theorem term_mul {t : CTy} (h : t.Safe) (a b : ℤ) : Term t (ofInt t a * ofInt t b) (a * b) :=
  ((near_ofInt t a).mul (near_ofInt t b)
    (by rcases h with e | e | e | e | e <;> subst e <;> decide)).term
    (by rcases h with e | e | e | e | e <;> subst e <;> decide)

theorem term_mul3 {t : CTy} (h : t.Safe3) (a b c : ℤ) :
    Term t (ofInt t a * ofInt t b * ofInt t c) (a * b * c) :=
  (((near_ofInt t a).mul (near_ofInt t b)
    (by rcases h with e | e | e | e <;> subst e <;> decide)).mul (near_ofInt t c)
    (by rcases h with e | e | e | e <;> subst e <;> decide)).term
    (by rcases h with e | e | e | e <;> subst e <;> decide)

theorem term_mul_mul {t : CTy} (h : t.Safe3) (a b c d : ℤ) :
    Term t (ofInt t a * ofInt t b + ofInt t c * ofInt t d) (a * b + c * d) :=
  (((near_ofInt t a).mul (near_ofInt t b)
    (by rcases h with e | e | e | e <;> subst e <;> decide)).add
    ((near_ofInt t c).mul (near_ofInt t d)
    (by rcases h with e | e | e | e <;> subst e <;> decide))
    (by rcases h with e | e | e | e <;> subst e <;> decide)).term
    (by rcases h with e | e | e | e <;> subst e <;> decide)

theorem conv_mul {t : CTy} (h : t.Safe) (a b : ℤ) :
    MixedOps.conv t (ofInt t a * ofInt t b) = ofInt t (a * b) :=
  ((near_ofInt t a).mul (near_ofInt t b)
    (by rcases h with e | e | e | e | e <;> subst e <;> decide)).conv

theorem symOf_ofInt (t : Triangle) (c : CTy) (a : ℕ → ℕ → ℤ) (i j : ℕ) :
    symOf t (fun i j => ofInt c (a i j)) i j = ofInt c (symOf t a i j) := by
  unfold symOf; split_ifs <;> rfl

theorem hermOf_ofInt (t : Triangle) (c : CTy) (a : ℕ → ℕ → ℤ) (i j : ℕ) :
    hermOf t (fun i j => ofInt c (a i j)) i j = ofInt c (symOf t a i j) := by
  unfold hermOf symOf
  by_cases q : i = j
  · subst q; rw [if_pos rfl, ite_self]; rfl
  · rw [if_neg q]; split_ifs <;> rfl

/-! ## Triangular products -/

theorem term_triTerm {c : CTy} (h : c.Safe) {t : Triangle} {d : Diag} {a : ℕ → ℕ → ℤ} {f : ℕ → ℤ}
    {r k : ℕ} (q : t.region r k ∨ r = k) :
    Term c (triTerm d (fun i j => ofInt c (a i j)) (fun i => ofInt c (f i)) r k)
      (triOf t d a r k * f k) := by
  unfold triTerm
  by_cases e : r = k
  · subst e
    rw [triOf_diag]
    cases d
    · rw [if_pos ⟨rfl, rfl⟩]
      simpa using term_one h (f r)
    · rw [if_neg (by simp)]
      exact term_mul h _ _
  · rw [triOf_inside e (q.resolve_right e), if_neg fun h => e h.2.symm]
    exact term_mul h _ _

theorem triSeqAs_ofInt {c : CTy} (h : c.Safe) (t : Triangle) (d : Diag) {n : ℕ} (a : ℕ → ℕ → ℤ)
    (f : ℕ → ℤ) (s : ℤ) {r : ℕ} (hr : r < n) :
    triSeqAs c t d n (fun i j => ofInt c (a i j)) (fun i => ofInt c (f i)) (ofInt c s) r =
      ofInt c (s + mulVec n (triOf t d a) f r) := by
  unfold mulVec
  cases t with
  | lower =>
    rw [sum_lower hr _ fun k hk h => by
      rw [triOf_outside (by omega) (fun h => by have : k ≤ r := h; omega), zero_mul]]
    exact Term.leftSumAs s fun k hk => term_triTerm h (t := .lower) (.inl (show k ≤ r by omega))
  | upper =>
    rw [sum_upper hr _ fun k hk => by
      rw [triOf_outside (by omega) (fun h => by have : r ≤ k := h; omega), zero_mul]]
    exact Term.leftSumAs s fun k hk => term_triTerm h (t := .upper) (.inl (show r ≤ r + k by omega))

theorem triSeqInPlaceAs_ofInt {c : CTy} (h : c.Safe) (t : Triangle) (d : Diag) {n : ℕ}
    (a : ℕ → ℕ → ℤ) (f : ℕ → ℤ) {r : ℕ} (hr : r < n) :
    triSeqInPlaceAs c t n (fun i j => ofInt c (a i j)) (fun i => ofInt c (f i))
      (ofInt c (triOf t d a r r * f r)) r = ofInt c (mulVec n (triOf t d a) f r) := by
  unfold mulVec
  cases t with
  | lower =>
    rw [sum_lower hr _ fun k hk h => by
      rw [triOf_outside (by omega) (fun h => by have : k ≤ r := h; omega), zero_mul], sum_range_succ,
      add_comm (∑ x ∈ range r, _), ← sum_range_reflect _ r]
    refine Term.leftSumAs _ fun k hk => ?_
    rw [triOf_inside (t := .lower) (by omega) (show r - 1 - k ≤ r by omega)]
    exact term_mul h _ _
  | upper =>
    rw [sum_upper' hr _ fun k hk => by
      rw [triOf_outside (by omega) (fun h => by have : r ≤ k := h; omega), zero_mul]]
    refine Term.leftSumAs _ fun k hk => ?_
    rw [triOf_inside (t := .upper) (by omega) (show r ≤ r + 1 + k by omega)]
    exact term_mul h _ _

theorem triElementAs_ofInt {c : CTy} {before : Bool} {d : Diag} {n i : ℕ} {t : ℕ → CInt}
    {diag : CInt} {s : ℤ} {e : ℕ → ℤ} (hi : i < n) (hd : Term c diag (e i))
    (hb : before = true → ∀ k, k < n → (k < i → Term c (t k) (e k)) ∧ (i < k → e k = 0))
    (ha : before = false → ∀ k, k < n → (i < k → Term c (t k) (e k)) ∧ (k < i → e k = 0)) :
    triElementAs c before d n i t diag (ofInt c s) = ofInt c (s + ∑ k ∈ range n, e k) := by
  cases before with
  | true =>
    rw [sum_lower hi _ fun k hk h => (hb rfl k hk).2 h, sum_range_succ, ← add_assoc]
    unfold triElementAs
    dsimp only
    rw [Term.leftSumAs s fun k hk => (hb rfl k (by omega)).1 hk, hd]
  | false =>
    rw [sum_upper' hi _ fun k hk => (ha rfl k (by omega)).2 hk]
    cases d with
    | explicit =>
      unfold triElementAs
      dsimp only
      rw [← add_assoc, hd]
      exact Term.leftSumAs _ fun k hk => (ha rfl (i + 1 + k) (by omega)).1 (by omega)
    | implicitUnit =>
      unfold triElementAs
      dsimp only
      rw [add_comm (e i), ← add_assoc,
        Term.leftSumAs s fun k hk => (ha rfl (i + 1 + k) (by omega)).1 (by omega), hd]

theorem diag_ofInt (c : CTy) (a : ℕ → ℕ → ℤ) (i j : ℕ) :
    (if i = j then MixedOps.conv c (ConjOps.re (ofInt c (a i i))) else ofInt c (a i j)) =
      ofInt c (a i j) := by
  split_ifs with e
  · subst e; exact conv_ofInt ..
  · rfl

theorem hermOf_diag_ofInt (t : Triangle) (c : CTy) (a : ℕ → ℕ → ℤ) (k j : ℕ) :
    (if k = j then ofInt c (a j j) else hermOf t (fun i j => ofInt c (a i j)) k j) =
      ofInt c (symOf t a k j) := by
  split_ifs with e
  · subst e; unfold symOf; rw [ite_self]
  · exact hermOf_ofInt ..

theorem trmm_left_ofInt {c : CTy} (h : c.Safe) {t : Triangle} {d : Diag} {n i j : ℕ} (hi : i < n)
    {a b : ℕ → ℕ → ℤ} :
    triElementAs c (t = .lower) d n i (fun k => ofInt c (a i k) * ofInt c (b k j))
      (if d = .explicit then ofInt c (a i i) * ofInt c (b i j) else ofInt c (b i j))
      (MixedOps.zero c) = ofInt c (mulMat n (triOf t d a) b i j) := by
  refine (triElementAs_ofInt (s := 0) (e := fun k => triOf t d a i k * b k j) hi ?_ ?_ ?_).trans
    (by rw [zero_add]; rfl)
  · rw [triOf_diag]
    cases d
    · rw [if_neg (by decide)]; dsimp only; rw [one_mul]; exact term_one h _
    · rw [if_pos rfl]; exact term_mul h _ _
  · intro q k _
    obtain rfl : t = .lower := by simpa using q
    refine ⟨fun hk => ?_, fun hk => ?_⟩
    · rw [triOf_inside (t := .lower) (by omega) (show k ≤ i by omega)]; exact term_mul h _ _
    · rw [triOf_outside (by omega) (fun h => by have : k ≤ i := h; omega), zero_mul]
  · intro q k _
    obtain rfl : t = .upper := by cases t <;> simp_all
    refine ⟨fun hk => ?_, fun hk => ?_⟩
    · rw [triOf_inside (t := .upper) (by omega) (show i ≤ k by omega)]; exact term_mul h _ _
    · rw [triOf_outside (by omega) (fun h => by have : i ≤ k := h; omega), zero_mul]

theorem trmm_right_ofInt {c : CTy} (h : c.Safe) {t : Triangle} {d : Diag} {n i j : ℕ} (hj : j < n)
    {a b : ℕ → ℕ → ℤ} :
    triElementAs c (t = .upper) d n j (fun k => ofInt c (b i k) * ofInt c (a k j))
      (if d = .explicit then ofInt c (b i j) * ofInt c (a j j) else ofInt c (b i j))
      (MixedOps.zero c) = ofInt c (mulMat n b (triOf t d a) i j) := by
  refine (triElementAs_ofInt (s := 0) (e := fun k => b i k * triOf t d a k j) hj ?_ ?_ ?_).trans
    (by rw [zero_add]; rfl)
  · rw [triOf_diag]
    cases d
    · rw [if_neg (by decide)]; dsimp only; rw [mul_one]; exact term_one h _
    · rw [if_pos rfl]; exact term_mul h _ _
  · intro q k _
    obtain rfl : t = .upper := by simpa using q
    refine ⟨fun hk => ?_, fun hk => ?_⟩
    · rw [triOf_inside (t := .upper) (by omega) (show k ≤ j by omega)]; exact term_mul h _ _
    · rw [triOf_outside (by omega) (fun h => by have : k ≤ j := h; omega), mul_zero]
  · intro q k _
    obtain rfl : t = .lower := by cases t <;> simp_all
    refine ⟨fun hk => ?_, fun hk => ?_⟩
    · rw [triOf_inside (t := .lower) (by omega) (show j ≤ k by omega)]; exact term_mul h _ _
    · rw [triOf_outside (by omega) (fun h => by have : j ≤ k := h; omega), mul_zero]

theorem diag_mul_ofInt {c : CTy} (h : c.Safe) (t : Triangle) (d : Diag) (a : ℕ → ℕ → ℤ) (i : ℕ)
    (z : ℤ) :
    (if d = .explicit then MixedOps.conv c (ofInt c z * ofInt c (a i i)) else ofInt c z) =
      ofInt c (triOf t d a i i * z) := by
  rw [triOf_diag]
  cases d
  · rw [if_neg (by decide)]; dsimp only; rw [one_mul]
  · rw [if_pos rfl, conv_mul h, mul_comm]

theorem diag_mul_ofInt' {c : CTy} (h : c.Safe) (t : Triangle) (d : Diag) (a : ℕ → ℕ → ℤ) (i : ℕ)
    (z : ℤ) :
    (if d = .explicit then MixedOps.conv c (ofInt c (a i i) * ofInt c z) else ofInt c z) =
      ofInt c (triOf t d a i i * z) := by
  rw [triOf_diag]
  cases d
  · rw [if_neg (by decide)]; dsimp only; rw [one_mul]
  · rw [if_pos rfl, conv_mul h]

theorem trmv_in_place_ofInt {c : CTy} (h : c.Safe) {t : Triangle} {d : Diag} {n r : ℕ} (hr : r < n)
    {a : ℕ → ℕ → ℤ} {f : ℕ → ℤ} :
    triSeqInPlaceAs c t n (fun i j => ofInt c (a i j)) (fun i => ofInt c (f i))
      (if d = .explicit then MixedOps.conv c (ofInt c (f r) * ofInt c (a r r)) else ofInt c (f r)) r =
      ofInt c (mulVec n (triOf t d a) f r) := by
  rw [diag_mul_ofInt h t]; exact triSeqInPlaceAs_ofInt h t d a f hr

theorem trmm_left_in_place_ofInt {c : CTy} (h : c.Safe) {t : Triangle} {d : Diag} {n i j : ℕ}
    (hi : i < n) {a b : ℕ → ℕ → ℤ} :
    triSeqInPlaceAs c t n (fun i j => ofInt c (a i j)) (fun k => ofInt c (b k j))
      (if d = .explicit then MixedOps.conv c (ofInt c (a i i) * ofInt c (b i j))
        else ofInt c (b i j)) i = ofInt c (mulMat n (triOf t d a) b i j) := by
  rw [diag_mul_ofInt' h t]; exact triSeqInPlaceAs_ofInt h t d a (fun k => b k j) hi

theorem trmm_right_in_place_ofInt {c : CTy} (h : c.Safe) {t : Triangle} {d : Diag} {n i j : ℕ}
    (hj : j < n) {a b : ℕ → ℕ → ℤ} :
    rightSeqInPlaceAs c t n (fun i j => ofInt c (b i j)) (fun i j => ofInt c (a i j))
      (if d = .explicit then MixedOps.conv c (ofInt c (b i j) * ofInt c (a j j))
        else ofInt c (b i j)) i j =
      ofInt c (mulMat n b (triOf t d a) i j) := by
  rw [diag_mul_ofInt h t]
  unfold mulMat rightSeqInPlaceAs
  cases t with
  | upper =>
    rw [sum_lower hj _ fun k hk h => by
      rw [triOf_outside (by omega) (fun h => by have : k ≤ j := h; omega), mul_zero], sum_range_succ,
      add_comm (∑ x ∈ range j, _), mul_comm (b i j)]
    refine Term.leftSumAs _ fun k hk => ?_
    rw [triOf_inside (t := .upper) (by omega) (show k ≤ j by omega)]
    exact term_mul h _ _
  | lower =>
    rw [sum_upper' hj _ fun k hk => by
      rw [triOf_outside (by omega) (fun h => by have : j ≤ k := h; omega), mul_zero],
      mul_comm (b i j)]
    refine Term.leftSumAs _ fun k hk => ?_
    rw [triOf_inside (t := .lower) (by omega) (show j ≤ j + 1 + k by omega)]
    exact term_mul h _ _

/-! ## No overflow -/

theorem ofExact_fits {t : CTy} {z : ℤ} (h : t.Fits z) : ofExact t z = ofInt t z := by
  unfold ofExact; rw [if_neg fun q => q.2 h]

theorem op_ofInt {g : CTy → ℤ → ℤ → CInt} {s t : CTy} {x y : ℤ} (hx : s.Fits x) (hy : t.Fits y)
    (hx' : (s.common t).Fits x) (hy' : (s.common t).Fits y) :
    CInt.op g (ofInt s x) (ofInt t y) = g (s.common t) x y := by
  show g (s.common t) ((s.common t).wrap (s.wrap x)) ((s.common t).wrap (t.wrap y)) = _
  rw [wrap_of_fits hx, wrap_of_fits hy, wrap_of_fits hx', wrap_of_fits hy']

/-- Both types are signed or both numbers are not negative. -/
def Plain (s t : CTy) (x y : ℤ) : Prop := (s.signed ∧ t.signed) ∨ (0 ≤ x ∧ 0 ≤ y)

theorem Plain.left {s t : CTy} {x y : ℤ} (p : Plain s t x y) (hx : s.Fits x) :
    (s.common t).Fits x := fits_common (p.imp id And.left) hx

theorem Plain.right {s t : CTy} {x y : ℤ} (p : Plain s t x y) (hy : t.Fits y) :
    (s.common t).Fits y := by
  rw [common_comm]; exact fits_common (p.imp And.symm And.right) hy

theorem Plain.fits {s t : CTy} {x y z : ℤ} (p : Plain s t x y) (hz : 0 ≤ x → 0 ≤ y → 0 ≤ z)
    (h : |z| ≤ (s.common t).max) : (s.common t).Fits z :=
  fits_of_abs (p.imp (fun q => common_signed q.1 q.2) fun q => hz q.1 q.2) h

theorem mul_exact {s t : CTy} {x y : ℤ} (p : Plain s t x y) (hx : s.Fits x) (hy : t.Fits y)
    (h : |x * y| ≤ (s.common t).max) : ofInt s x * ofInt t y = ofInt (s.common t) (x * y) :=
  (op_ofInt hx hy (p.left hx) (p.right hy)).trans (ofExact_fits (p.fits mul_nonneg h))

theorem add_exact {s t : CTy} {x y : ℤ} (p : Plain s t x y) (hx : s.Fits x) (hy : t.Fits y)
    (h : (s.common t).Fits (x + y)) : ofInt s x + ofInt t y = ofInt (s.common t) (x + y) :=
  (op_ofInt hx hy (p.left hx) (p.right hy)).trans (ofExact_fits h)

theorem sub_exact {s t : CTy} {x y : ℤ} (p : Plain s t x y) (hx : s.Fits x) (hy : t.Fits y)
    (h : (s.common t).Fits (x - y)) : ofInt s x - ofInt t y = ofInt (s.common t) (x - y) :=
  (op_ofInt hx hy (p.left hx) (p.right hy)).trans (ofExact_fits h)

theorem div_exact {s t : CTy} {x y : ℤ} (p : Plain s t x y) (hx : s.Fits x) (hy : t.Fits y)
    (hy0 : y ≠ 0) (h : (s.common t).Fits (x.tdiv y)) :
    ofInt s x / ofInt t y = ofInt (s.common t) (x.tdiv y) := by
  refine (op_ofInt hx hy (p.left hx) (p.right hy)).trans ?_
  rw [if_neg hy0]
  exact ofExact_fits h

theorem conv_exact {s t : CTy} {x : ℤ} (hx : s.Fits x) :
    MixedOps.conv t (ofInt s x) = ofInt t x := by
  show ofInt t (s.wrap x) = _
  rw [wrap_of_fits hx]

/-- The common type holds what the type of the variable holds. -/
theorem fits_common_of {s t : CTy} {x y z : ℤ} (p : Plain s t x y) (hz : 0 ≤ x → 0 ≤ y → 0 ≤ z)
    (h : s.Fits z) : (s.common t).Fits z :=
  fits_common (p.imp id fun q => hz q.1 q.2) h

theorem addTo_exact {s t : CTy} {x y : ℤ} (p : Plain s t x y) (hx : s.Fits x) (hy : t.Fits y)
    (h : s.Fits (x + y)) : MixedOps.conv s (ofInt s x + ofInt t y) = ofInt s (x + y) := by
  have h' := fits_common_of p add_nonneg h
  rw [add_exact p hx hy h', conv_exact h']

theorem subTo_exact {s t : CTy} {x y : ℤ} (hs : s.signed) (ht : t.signed) (hx : s.Fits x)
    (hy : t.Fits y) (h : s.Fits (x - y)) :
    MixedOps.conv s (ofInt s x - ofInt t y) = ofInt s (x - y) := by
  have h' : (s.common t).Fits (x - y) := fits_common (.inl ⟨hs, ht⟩) h
  rw [sub_exact (.inl ⟨hs, ht⟩) hx hy h', conv_exact h']

theorem leftSumAs_exact {t c : CTy} {s : ℤ} {p : ℕ → ℤ} {n : ℕ}
    (hp : (t.signed ∧ c.signed) ∨ (0 ≤ s ∧ ∀ k < n, 0 ≤ p k))
    (hf : ∀ k < n, c.Fits (p k)) (h : |s| + ∑ k ∈ range n, |p k| ≤ t.max) :
    leftSumAs t (ofInt t s) n (fun k => ofInt c (p k)) = ofInt t (s + ∑ k ∈ range n, p k) := by
  induction n with
  | zero => simp [leftSumAs]
  | succ n ih =>
    rw [sum_range_succ, ← add_assoc] at h
    have nn := abs_nonneg (p n)
    rw [leftSumAs, ih (hp.imp id fun q => ⟨q.1, fun k hk => q.2 k (by omega)⟩)
      (fun k hk => hf k (by omega)) (by linarith), sum_range_succ, ← add_assoc]
    have b1 : |s + ∑ k ∈ range n, p k| ≤ |s| + ∑ k ∈ range n, |p k| :=
      (abs_add_le ..).trans (add_le_add le_rfl (abs_sum_le_sum_abs ..))
    have b2 := abs_add_le (s + ∑ k ∈ range n, p k) (p n)
    have pos : (0 ≤ s ∧ ∀ k < n + 1, 0 ≤ p k) → 0 ≤ s + ∑ k ∈ range n, p k := fun q =>
      add_nonneg q.1 (sum_nonneg fun k hk => q.2 k (by rw [mem_range] at hk; omega))
    refine addTo_exact (hp.imp id fun q => ⟨pos q, q.2 n (by omega)⟩) ?_ (hf n (by omega)) ?_
    · exact fits_of_abs (hp.imp And.left pos) (by linarith)
    · exact fits_of_abs (hp.imp And.left fun q => add_nonneg (pos q) (q.2 n (by omega))) (by linarith)

theorem leftDiffAs_exact {t c : CTy} {s : ℤ} {p : ℕ → ℤ} {n : ℕ} (ht : t.signed) (hc : c.signed)
    (hf : ∀ k < n, c.Fits (p k)) (h : |s| + ∑ k ∈ range n, |p k| ≤ t.max) :
    leftDiffAs t (ofInt t s) n (fun k => ofInt c (p k)) = ofInt t (s - ∑ k ∈ range n, p k) := by
  induction n with
  | zero => simp [leftDiffAs]
  | succ n ih =>
    rw [sum_range_succ, ← add_assoc] at h
    have nn := abs_nonneg (p n)
    rw [leftDiffAs, ih (fun k hk => hf k (by omega)) (by linarith), sum_range_succ, ← sub_sub]
    have b1 : |s - ∑ k ∈ range n, p k| ≤ |s| + ∑ k ∈ range n, |p k| :=
      (abs_sub ..).trans (add_le_add le_rfl (abs_sum_le_sum_abs ..))
    have b2 := abs_sub (s - ∑ k ∈ range n, p k) (p n)
    refine subTo_exact ht hc ?_ (hf n (by omega)) ?_ <;>
      exact fits_of_abs (.inl ht) (by linarith)

end CInt
end StdBLAS

import Verif.Lemmas.Accurate
import Verif.Lemmas.AccurateComplex
import Verif.Lemmas.KokkosReductions
import Verif.Lemmas.KokkosProducts
import Verif.Lemmas.KokkosFloat

/-! # Error analysis of sums in the order of the Kokkos backend

Sums along any reduction tree, and sums over a row in another order than from left to right. -/

namespace StdBLAS
open Finset

theorem list_sum_range {K : Type} [AddCommMonoid K] (n : ℕ) (e : ℕ → K) :
    ((List.range n).map e).sum = ∑ k ∈ range n, e k := by
  induction n with
  | zero => rfl
  | succ n ih => rw [List.range_succ, List.map_append, List.sum_append, ih, sum_range_succ]; simp

theorem perm_sum {K : Type} [AddCommMonoid K] {l : List ℕ} {n : ℕ} (p : l.Perm (List.range n))
    (e : ℕ → K) : (l.map e).sum = ∑ k ∈ range n, e k := by
  rw [(p.map e).sum_eq, list_sum_range]

/-- What `FP.Acc` and `CFP.Acc` have in common: a bound for a computed value `r` of an exact value. -/
structure Bounds (X K : Type) [Add X] [Zero X] [AddCommMonoid K] where
  Acc : ℕ → ℝ → Prop → X → K → ℝ → Prop
  mono : ∀ {m n z I r e w}, m ≤ n → Acc m z I r e w → Acc n z I r e w
  add : ∀ {m z z' I I' a b e e' w w'}, Acc m z I a e w → Acc m z' I' b e' w' →
    Acc (m + 1) (z + z') (I ∧ I') (a + b) (e + e') (w + w')
  zero : ∀ m, Acc m 0 True 0 0 0
  zero_add : ∀ {m z I r e w}, Acc m z I r e w → 0 + r = r
  add_zero : ∀ {m z I r e w}, Acc m z I r e w → r + 0 = r

namespace Bounds
variable {X K α : Type} [Add X] [Zero X] [AddCommMonoid K] (B : Bounds X K)

theorem congr {m z z' I I' r e e' w w'} (c : B.Acc m z I r e w) (hI : I' ↔ I) (he : e' = e)
    (hw : w' = w) (hz : z' = z) : B.Acc m z' I' r e' w' := by
  subst he hw hz
  rw [propext hI]
  exact c

theorem foldl {m : ℕ} {l : List ℕ} {z : ℝ} {I : Prop} {s : X} {S : K} {M : ℝ}
    {y w : ℕ → ℝ} {J : ℕ → Prop} {v : ℕ → X} {e : ℕ → K} (c : B.Acc m z I s S M)
    (ct : ∀ k ∈ l, B.Acc m (y k) (J k) (v k) (e k) (w k)) :
    B.Acc (m + l.length) (z + (l.map y).sum) (I ∧ ∀ k ∈ l, J k)
      (l.foldl (fun s k => s + v k) s) (S + (l.map e).sum) (M + (l.map w).sum) := by
  induction l generalizing m z I s S M with
  | nil => exact B.congr c (by simp) (by simp) (by simp) (by simp)
  | cons a l ih =>
    have := ih (B.add c (ct a (by simp))) fun k hk => B.mono (Nat.le_succ m) (ct k (by simp [hk]))
    rw [Nat.add_right_comm] at this
    exact B.congr this (by simp [and_assoc]) (by simp [add_assoc]) (by simp [add_assoc])
      (by simp [add_assoc])

/-- A sum of terms from zero: one addition less, because the first one is exact. -/
theorem foldl_zero {m : ℕ} {l : List ℕ} {y w : ℕ → ℝ} {J : ℕ → Prop} {v : ℕ → X} {e : ℕ → K}
    (ct : ∀ k ∈ l, B.Acc m (y k) (J k) (v k) (e k) (w k)) :
    B.Acc (m + (l.length - 1)) (l.map y).sum (∀ k ∈ l, J k)
      (l.foldl (fun s k => s + v k) 0) (l.map e).sum (l.map w).sum := by
  cases l with
  | nil => exact B.congr (B.zero _) (by simp) rfl rfl rfl
  | cons a l =>
    have c := ct a (by simp)
    rw [List.foldl_cons, B.zero_add c]
    have := B.foldl (l := l) c fun k hk => ct k (by simp [hk])
    exact B.congr this (by simp) (by simp) (by simp) (by simp)

theorem foldl_zero_perm {m n : ℕ} {l : List ℕ} (p : l.Perm (List.range n)) {y w : ℕ → ℝ}
    {J : ℕ → Prop} {v : ℕ → X} {e : ℕ → K}
    (ct : ∀ k, k < n → B.Acc m (y k) (J k) (v k) (e k) (w k)) :
    B.Acc (m + (n - 1)) (∑ k ∈ range n, y k) (∀ k, k < n → J k)
      (l.foldl (fun s k => s + v k) 0) (∑ k ∈ range n, e k) (∑ k ∈ range n, w k) := by
  have hl : l.length = n := by simpa using p.length_eq
  have hm : ∀ k, k ∈ l ↔ k < n := fun k => by rw [p.mem_iff, List.mem_range]
  have := B.foldl_zero (l := l) fun k hk => ct k ((hm k).1 hk)
  rw [hl] at this
  exact B.congr this (by simp only [hm]) (perm_sum p e).symm (perm_sum p w).symm (perm_sum p y).symm

/-- A sum along a reduction tree. -/
theorem tree {m : ℕ} {h : Heap α} {body : Nat → X → Rd α X} {y w : ℕ → ℝ} {J : ℕ → Prop}
    {v : ℕ → X} {e : ℕ → K} (t : RedTree)
    (hb : ∀ i ∈ t.visits, ∀ s, body i s h = .ok (s + v i))
    (ct : ∀ k ∈ t.visits, B.Acc m (y k) (J k) (v k) (e k) (w k)) :
    ∃ r, t.eval body 0 (fun a b => a + b) h = .ok r ∧ (t.visits = [] → r = 0) ∧
      B.Acc (m + (t.visits.length - 1)) (t.visits.map y).sum (∀ k ∈ t.visits, J k) r
        (t.visits.map e).sum (t.visits.map w).sum := by
  induction t with
  | chunk l =>
    refine ⟨l.foldl (fun s i => s + v i) 0, Rd.foldlM_ok (fun s i => s + v i) hb, ?_,
      B.foldl_zero ct⟩
    intro h0
    rw [show l = [] from h0]; rfl
  | join s t ihs iht =>
    have hs : ∀ i, i ∈ s.visits → i ∈ (RedTree.join s t).visits := fun i hi => by
      simp [RedTree.visits, hi]
    have ht : ∀ i, i ∈ t.visits → i ∈ (RedTree.join s t).visits := fun i hi => by
      simp [RedTree.visits, hi]
    obtain ⟨r1, h1, z1, c1⟩ := ihs (fun i hi => hb i (hs i hi)) fun k hk => ct k (hs k hk)
    obtain ⟨r2, h2, z2, c2⟩ := iht (fun i hi => hb i (ht i hi)) fun k hk => ct k (ht k hk)
    refine ⟨r1 + r2, ?_, ?_, ?_⟩
    · unfold RedTree.eval
      rw [Rd.bind_ok h1, Rd.bind_ok h2]; rfl
    · intro h0
      have h0 := List.append_eq_nil_iff.1 h0
      rw [z1 h0.1, z2 h0.2, B.zero_add (B.zero 0)]
    · change B.Acc (m + ((s.visits ++ t.visits).length - 1)) ((s.visits ++ t.visits).map y).sum
        (∀ k ∈ s.visits ++ t.visits, J k) (r1 + r2) ((s.visits ++ t.visits).map e).sum
        ((s.visits ++ t.visits).map w).sum
      rcases Nat.eq_zero_or_pos s.visits.length with l1 | l1
      · have l1 := List.eq_nil_of_length_eq_zero l1
        rw [z1 l1, l1, B.zero_add c2]
        exact c2
      rcases Nat.eq_zero_or_pos t.visits.length with l2 | l2
      · have l2 := List.eq_nil_of_length_eq_zero l2
        rw [z2 l2, l2, B.add_zero c1, List.append_nil]
        exact c1
      · have c := B.add
          (B.mono (show _ ≤ m + (s.visits.length + t.visits.length - 2) by omega) c1)
          (B.mono (show _ ≤ m + (s.visits.length + t.visits.length - 2) by omega) c2)
        rw [List.length_append, show m + (s.visits.length + t.visits.length - 1) =
          m + (s.visits.length + t.visits.length - 2) + 1 by omega]
        refine B.congr c ?_ (by simp) (by simp) (by simp)
        simp only [List.mem_append]
        exact ⟨fun h => ⟨fun k hk => h k (.inl hk), fun k hk => h k (.inr hk)⟩,
          fun h k hk => hk.elim (h.1 k) (h.2 k)⟩

/-- A parallel sum: the bound holds under every schedule. -/
theorem surely {m n : ℕ} {h : Heap α} {body : Nat → X → Rd α X} {y w : ℕ → ℝ} {J : ℕ → Prop}
    (v : ℕ → X) {e : ℕ → K} (hb : ∀ i, i < n → ∀ s, body i s h = .ok (s + v i))
    (ct : ∀ k, k < n → B.Acc m (y k) (J k) (v k) (e k) (w k)) {Q : X → Heap α → Prop}
    (q : ∀ r, (n = 0 → r = 0) → B.Acc (m + (n - 1)) (∑ k ∈ range n, y k) (∀ k, k < n → J k) r
      (∑ k ∈ range n, e k) (∑ k ∈ range n, w k) → Q r h) :
    Surely (parReduce n body 0 (fun a b => a + b)) h Q := by
  have key : ∀ t : RedTree, t.Covers n →
      ∃ r, (t.eval body 0 (fun a b => a + b)).prog h = .ok (r, h) ∧ Q r h := by
    intro t ht
    have hm : ∀ k, k ∈ t.visits ↔ k < n := fun k => by rw [ht.mem_iff, List.mem_range]
    have hl : t.visits.length = n := by simpa using ht.length_eq
    obtain ⟨r, h1, z1, c1⟩ := B.tree t (fun i hi => hb i ((hm i).1 hi)) fun k hk => ct k ((hm k).1 hk)
    refine ⟨r, ?_, q r (fun h0 => z1 ?_) ?_⟩
    · unfold Rd.prog
      rw [h1]; rfl
    · exact List.eq_nil_of_length_eq_zero (hl.trans h0)
    · rw [hl] at c1
      exact B.congr c1 (by simp only [hm]) (perm_sum ht e).symm (perm_sum ht w).symm
        (perm_sum ht y).symm
  refine ⟨⟨_, .chunk (List.range n), List.Perm.refl _, rfl⟩, ?_⟩
  rintro _ ⟨t, ht, rfl⟩
  obtain ⟨r, h1, h2⟩ := key t ht
  exact ⟨r, h, h1, h2⟩

end Bounds

/-! ## The two instances -/

theorem FP.valid_add_zero {f : Format} {a : FP f} (h : a.Valid) : a + 0 = a := by
  cases a with
  | fin x =>
    change FP.ofReal f (x + 0) = _
    have h' : f.rnd x = x ∧ |x| ≤ f.big := h
    rw [_root_.add_zero, FP.ofReal_fin (by rw [h'.1]; exact h'.2), h'.1]
  | inf s => rfl
  | nan => rfl

theorem FP.valid_zero_add {f : Format} {a : FP f} (h : a.Valid) : 0 + a = a := by
  cases a with
  | fin x =>
    change FP.ofReal f (0 + x) = _
    have h' : f.rnd x = x ∧ |x| ≤ f.big := h
    rw [_root_.zero_add, FP.ofReal_fin (by rw [h'.1]; exact h'.2), h'.1]
  | inf s => rfl
  | nan => rfl

def FP.bounds {f : Format} {u η : ℝ} (E : f.Errors u η) : Bounds (FP f) ℝ where
  Acc := FP.Acc u
  mono := FP.Acc.mono E.u_nonneg
  add := FP.Acc.add E
  zero m := (FP.acc_input E.u_nonneg m FP.zero_valid).congr ⟨fun _ => trivial, fun _ => trivial⟩ rfl
    abs_zero.symm rfl
  zero_add c := FP.valid_zero_add c.valid
  add_zero c := FP.valid_add_zero c.valid

/-- NaN is contagious in sums: the instance of `Bounds` in which `I` is "no term is NaN". -/
def FP.nanBounds {f : Format} {u η : ℝ} (E : f.Errors u η) : Bounds (FP f) ℝ where
  Acc _ _ I r _ _ := r.Valid ∧ (¬ I → r = FP.nan)
  mono _ c := c
  add {m z z' I I' a b e e' w w'} c c' := by
    refine ⟨((FP.acc_input E.u_nonneg 0 c.1).add E (FP.acc_input E.u_nonneg 0 c'.1)).valid, fun h => ?_⟩
    by_cases hI : I
    · rw [c'.2 fun h' => h ⟨hI, h'⟩]
      cases a <;> rfl
    · rw [c.2 hI]; rfl
  zero _ := ⟨FP.zero_valid, fun h => absurd trivial h⟩
  zero_add c := FP.valid_zero_add c.1
  add_zero c := FP.valid_add_zero c.1

theorem CFP.valid_zero_add {f : Format} {R : Recovery f} {a : CFP f R} (h : a.Valid) : 0 + a = a :=
  CFP.ext (FP.valid_zero_add h.1) (FP.valid_zero_add h.2)

def CFP.bounds {f : Format} {R : Recovery f} {u η : ℝ} (E : f.Errors u η) : Bounds (CFP f R) ℂ where
  Acc := CFP.Acc u
  mono := CFP.Acc.mono E.u_nonneg
  add := CFP.Acc.add E
  zero m := (CFP.acc_input E.u_nonneg m CFP.zero_valid).congr
    ⟨fun _ => CFP.zero_finite, fun _ => trivial⟩ rfl CFP.size_zero.symm rfl
  zero_add c := CFP.ext (FP.valid_zero_add c.valid.1) (FP.valid_zero_add c.valid.2)
  add_zero c := CFP.ext (FP.valid_add_zero c.valid.1) (FP.valid_add_zero c.valid.2)

/-- A sum of one term is that term, under every schedule. -/
theorem FP.surely_one {F : Format} {u η : ℝ} (E : F.Errors u η) {α : Type} {n : ℕ} {h : Heap α}
    {body : ℕ → FP F → Rd α (FP F)} (hn : n = 1) (v : FP F)
    (hb : ∀ i, i < n → ∀ s, body i s h = .ok (s + v)) (hv : v.Valid) {Q : FP F → Heap α → Prop}
    (q : Q v h) : Surely (parReduce n body 0 (fun a b => a + b)) h Q := by
  let B : Bounds (FP F) ℕ :=
    { Acc := fun _ _ _ r e _ => r.Valid ∧ (e = 0 → r = 0) ∧ (e = 1 → r = v)
      mono := fun _ c => c
      add := by
        intro m z z' I I' a b e e' w w' c c'
        refine ⟨((FP.acc_input E.u_nonneg 0 c.1).add E (FP.acc_input E.u_nonneg 0 c'.1)).valid,
          fun he => ?_, fun he => ?_⟩
        · rw [c.2.1 (by omega), c'.2.1 (by omega)]; exact FP.valid_zero_add FP.zero_valid
        · have : e = 0 ∧ e' = 1 ∨ e = 1 ∧ e' = 0 := by omega
          rcases this with ⟨h0, h1⟩ | ⟨h0, h1⟩
          · rw [c.2.1 h0, c'.2.2 h1]; exact FP.valid_zero_add hv
          · rw [c.2.2 h0, c'.2.1 h1]; exact FP.valid_add_zero hv
      zero := fun _ => ⟨FP.zero_valid, fun _ => rfl, fun h => absurd h (by simp)⟩
      zero_add := fun c => FP.valid_zero_add c.1
      add_zero := fun c => FP.valid_add_zero c.1 }
  refine B.surely (m := 0) (y := fun _ => 0) (w := fun _ => 0) (J := fun _ => True) (e := fun _ => 1)
    (fun _ => v) hb (fun k _ => ⟨hv, fun h => absurd h (by simp), fun _ => rfl⟩) fun r _ c => ?_
  rw [c.2.2 (by rw [hn]; simp)]
  exact q

/-- A sum with a NaN among its terms is NaN, under every schedule. -/
theorem FP.surely_nan {F : Format} {u η : ℝ} (E : F.Errors u η) {α : Type} {n : ℕ} {h : Heap α}
    {body : ℕ → FP F → Rd α (FP F)} (v : ℕ → FP F)
    (hb : ∀ i, i < n → ∀ s, body i s h = .ok (s + v i)) (hv : ∀ i, i < n → (v i).Valid)
    (hn : ∃ i, i < n ∧ v i = FP.nan) {Q : FP F → Heap α → Prop}
    (q : Q FP.nan h) : Surely (parReduce n body 0 (fun a b => a + b)) h Q := by
  refine (FP.nanBounds E).surely (m := 0) (y := fun _ => 0) (w := fun _ => 0)
    (J := fun k => v k ≠ FP.nan) (e := fun _ => 0) v hb
    (fun k hk => ⟨hv k hk, fun h => not_not.1 h⟩) fun r _ c => ?_
  obtain ⟨i, hi, e⟩ := hn
  rw [c.2 fun h => h i hi e]
  exact q

namespace FP
variable {f : Format} {u η : ℝ}

theorem val_abs (a : FP f) : (FP.abs a).val = |a.val| := by cases a <;> simp [FP.abs, val]

theorem acc_of_abs (E : f.Errors u η) (m : ℕ) {a : FP f} (ha : a.Valid) :
    Acc u m 0 a.Finite (FP.abs a) |a.val| |a.val| :=
  (acc_input E.u_nonneg m (ha.abs E)).congr finite_abs.symm (val_abs a).symm
    (by rw [val_abs, _root_.abs_abs]) rfl

theorem acc_square_abs (E : f.Errors u η) (a : FP f) :
    Acc u 1 η a.Finite (FP.abs a * FP.abs a) (a.val ^ 2) (a.val ^ 2) :=
  (acc_mul E (FP.abs a) (FP.abs a)).congr ⟨fun h => ⟨finite_abs.2 h, finite_abs.2 h⟩, fun h => finite_abs.1 h.1⟩
    (by rw [val_abs, ← _root_.sq_abs, pow_two]) (by rw [val_abs, _root_.abs_abs, ← _root_.sq_abs, pow_two]) rfl

/-- A row of absolute values, summed from left to right. -/
theorem acc_abs_row (E : f.Errors u η) {n : ℕ} (hn : 0 < n) {x : ℕ → FP f} (vx : ∀ j, j < n → (x j).Valid) :
    Acc u (n - 1) 0 (∀ j, j < n → (x j).Finite)
      (StdBLAS.leftSum (FP.abs (x 0)) (n - 1) fun k => FP.abs (x (1 + k)))
      (∑ j ∈ range n, |(x j).val|) (∑ j ∈ range n, |(x j).val|) := by
  have c := Acc.leftSum E (n := n - 1) (acc_of_abs E 0 (vx 0 hn)) fun k hk =>
    acc_of_abs E 0 (vx (1 + k) (by omega))
  rw [_root_.zero_add] at c
  have e : ∑ j ∈ range n, |(x j).val| = |(x 0).val| + ∑ k ∈ range (n - 1), |(x (1 + k)).val| := by
    obtain ⟨m, rfl⟩ : ∃ m, n = m + 1 := ⟨n - 1, by omega⟩
    rw [sum_range_succ', _root_.add_comm, Nat.add_sub_cancel]
    simp only [Nat.add_comm 1]
  refine c.congr ⟨fun h => ⟨h 0 hn, fun k hk => h (1 + k) (by omega)⟩, fun h j hj => ?_⟩ e e (by simp)
  rcases Nat.eq_zero_or_pos j with rfl | h0
  · exact h.1
  · have := h.2 (j - 1) (by omega)
    rwa [show 1 + (j - 1) = j by omega] at this

/-- A sum of nonnegative numbers is nonnegative or positive infinity. -/
theorem leftSum_nonneg {s : FP f} {t : ℕ → FP f} (n : ℕ) (hs : s = inf false ∨ ∃ x, 0 ≤ x ∧ s = fin x)
    (ht : ∀ k, k < n → ∃ x, 0 ≤ x ∧ t k = fin x) :
    StdBLAS.leftSum s n t = inf false ∨ ∃ x, 0 ≤ x ∧ StdBLAS.leftSum s n t = fin x := by
  induction n with
  | zero => exact hs
  | succ n ih =>
    change StdBLAS.leftSum s n t + t n = _ ∨ ∃ x, _ ∧ StdBLAS.leftSum s n t + t n = _
    obtain ⟨y, hy, ey⟩ := ht n (by omega)
    rw [ey]
    rcases ih fun k hk => ht k (by omega) with e | ⟨x, hx, e⟩
    · rw [e]; exact .inl rfl
    · rw [e]
      change ofReal f (x + y) = _ ∨ ∃ z, _ ∧ ofReal f (x + y) = _
      have h0 : 0 ≤ x + y := by linarith
      unfold ofReal
      split_ifs
      · exact .inr ⟨_, rnd_nonneg h0, rfl⟩
      · left
        rw [decide_eq_false (not_lt.2 h0)]

/-- The largest of several sums of absolute values. -/
theorem acc_largest (E : f.Errors u η) {m n : ℕ} {x : ℕ → ℕ → FP f} (hn : 0 < n) {l : ℝ} (hl : l ≤ 0)
    (vl : (fin l : FP f).Valid) (vx : ∀ i j, i < m → j < n → (x i j).Valid)
    (hx : ∀ i j, i < m → j < n → (x i j).Finite) {N : ℝ}
    (hN : IsGreatest {y | ∃ i, i < m ∧ y = ∑ j ∈ range n, |(x i j).val|} N) {M : FP f}
    (hM : LargestOf (fin l) m
      (fun i => StdBLAS.leftSum (FP.abs (x i 0)) (n - 1) fun k => FP.abs (x i (1 + k))) M) :
    Acc u (n - 1) 0 True M N N := by
  have hu := E.u_nonneg
  have hP : 1 ≤ (1 + u) ^ (n - 1) := one_le_pow₀ (by linarith)
  have hc := fun i (hi : i < m) => acc_abs_row E hn fun j hj => vx i j hi hj
  have hp : ∀ i, i < m → _ := fun i hi => leftSum_nonneg (f := f) (s := FP.abs (x i 0))
    (t := fun k => FP.abs (x i (1 + k))) (n - 1)
    (.inr ⟨_, abs_nonneg _, by rw [(hx i 0 hi hn).eq]; rfl⟩)
    fun k hk => ⟨_, abs_nonneg _, by rw [(hx i (1 + k) hi (by omega)).eq]; rfl⟩
  obtain ⟨i0, hi0, eN⟩ := hN.1
  have hN0 : 0 ≤ N := by rw [eN]; exact sum_nonneg fun _ _ => abs_nonneg _
  have hin : ∀ i, i < m → ∀ j, j < n → (x i j).Finite := fun i hi j hj => hx i j hi hj
  have hle : ∀ i, i < m → ∑ j ∈ range n, |(x i j).val| ≤ N := fun i hi => hN.2 ⟨i, hi, rfl⟩
  generalize hρ : (fun i => StdBLAS.leftSum (FP.abs (x i 0)) (n - 1) fun k => FP.abs (x i (1 + k))) = ρ
    at hM
  have hρ' : ∀ i, StdBLAS.leftSum (FP.abs (x i 0)) (n - 1) (fun k => FP.abs (x i (1 + k))) = ρ i :=
    fun i => congrFun hρ i
  simp only [hρ'] at hc hp
  have err : ∀ i, i < m → (ρ i).Finite → |(ρ i).val - (∑ j ∈ range n, |(x i j).val|)| ≤
      ((1 + u) ^ (n - 1) - 1) * ∑ j ∈ range n, |(x i j).val| := fun i hi h => by
    have := ((hc i hi).error h).2
    rwa [mul_zero, add_zero] at this
  refine ⟨⟨fun hf => ⟨trivial, ?_⟩, fun _ hbig => ?_⟩, ?_, by rw [abs_of_nonneg hN0], le_rfl⟩
  · rw [mul_zero, add_zero]
    rcases M with v | _ | _
    · have h0 : (ρ i0).Finite ∧ (ρ i0).val ≤ v := by
        have h := hM.le i0 hi0
        rcases hp i0 hi0 with e | ⟨y, _, e⟩
        · rw [e] at h; simp [lt] at h
        · rw [e] at h ⊢
          exact ⟨trivial, not_lt.1 (of_decide_eq_false h)⟩
      have e0 := err i0 hi0 h0.1
      rw [← eN] at e0
      have h3 : v ≤ (1 + u) ^ (n - 1) * N := by
        rcases hM.mem with e | ⟨i, hi, e⟩
        · injection e with e
          have := mul_nonneg (zero_le_one.trans hP) hN0
          linarith
        · have h1 := err i hi (by rw [← e]; trivial)
          have h2 : v = (ρ i).val := congrArg val e
          have h4 := mul_le_mul_of_nonneg_left (hle i hi) (zero_le_one.trans hP)
          have h5 := (abs_le.1 h1).2
          linarith
      change |v - N| ≤ _
      rw [abs_le] at e0 ⊢
      constructor <;> linarith [e0.1, h0.2]
    · exact hf.elim
    · exact hf.elim
  · rcases hM.mem with e | ⟨i, hi, e⟩
    · rw [e]; trivial
    · rw [e]
      refine (hc i hi).finite (hin i hi) (hbig.trans' ?_)
      rw [add_zero, add_zero]
      exact mul_le_mul_of_nonneg_left (hle i hi) (zero_le_one.trans hP)
  · rcases hM.mem with e | ⟨i, hi, e⟩
    · rw [e]; exact vl
    · rw [e]; exact (hc i hi).valid

end FP

/-! ## Rows of symmetric and Hermitian matrices -/

/-- The order in which `kkSymSeq` adds the terms of row `i`. -/
def kkSymOrder (t : Triangle) (n i : ℕ) : List ℕ :=
  match t with
  | .upper => List.range' i (n - i) ++ List.range' 0 i
  | .lower => List.range' 0 n

theorem kkSymOrder_perm (t : Triangle) {n i : ℕ} (hi : i < n) :
    (kkSymOrder t n i).Perm (List.range n) := by
  cases t with
  | lower => rw [List.range_eq_range']; exact List.Perm.refl _
  | upper =>
    refine List.perm_append_comm.trans ?_
    have := List.range'_append_1 (s := 0) (m := i) (n := n - i)
    rw [Nat.zero_add, show i + (n - i) = n by omega] at this
    rw [this, List.range_eq_range']

theorem kkSymSeq_order {α : Type} [Add α] [Mul α] [Zero α] (c : α → α) (t : Triangle) {n i : ℕ}
    (a : ℕ → ℕ → α) (f : ℕ → α) (hi : i < n) : kkSymSeq c t n a f i =
      (kkSymOrder t n i).foldl (fun s k => s + mirror c t a i k * f k) 0 := by
  have fold_congr : ∀ (l : List ℕ) (p q : ℕ → α) (s : α), (∀ k ∈ l, p k = q k) →
      l.foldl (fun s k => s + p k) s = l.foldl (fun s k => s + q k) s := by
    intro l p q s hpq
    induction l generalizing s with
    | nil => rfl
    | cons x l ih =>
      rw [List.foldl_cons, List.foldl_cons, hpq x (by simp), ih _ fun k hk => hpq k (by simp [hk])]
  cases t with
  | upper =>
    simp only [kkSymSeq, kkSymOrder]
    rw [List.foldl_append, ← foldl_range'_leftSum 0 i (n - i) fun j => a i j * f j,
      ← foldl_up_leftSum]
    rw [fold_congr (List.range' i (n - i)) (fun k => mirror c .upper a i k * f k)
      (fun j => a i j * f j) 0 fun k hk => by
        have := (List.mem_range'_1.1 hk).1
        rw [mirror, if_pos (show Triangle.upper.region i k from by change i ≤ k; omega)]]
    refine fold_congr _ _ _ _ fun k hk => ?_
    have := (List.mem_range'_1.1 hk).2
    rw [mirror, if_neg (show ¬ Triangle.upper.region i k from by change ¬ i ≤ k; omega)]
  | lower =>
    simp only [kkSymSeq, kkSymOrder]
    have e := List.range'_append_1 (s := 0) (m := i + 1) (n := n - (i + 1))
    rw [Nat.zero_add, show i + 1 + (n - (i + 1)) = n by omega] at e
    rw [← e, List.foldl_append,
      ← foldl_range'_leftSum _ (i + 1) (n - (i + 1)) fun j => c (a j i) * f j,
      ← foldl_up_leftSum]
    rw [fold_congr (List.range' 0 (i + 1)) (fun k => mirror c .lower a i k * f k)
      (fun j => a i j * f j) 0 fun k hk => by
        have := (List.mem_range'_1.1 hk).2
        rw [mirror, if_pos (show Triangle.lower.region i k from by change k ≤ i; omega)]]
    refine fold_congr _ _ _ _ fun k hk => ?_
    have := (List.mem_range'_1.1 hk).1
    rw [mirror, if_neg (show ¬ Triangle.lower.region i k from by change ¬ k ≤ i; omega)]

/-- A row of a symmetric or Hermitian matrix times a vector. -/
theorem Bounds.kkSym {X K : Type} [Add X] [Zero X] [Mul X] [AddCommMonoid K] (B : Bounds X K)
    {m n i : ℕ} (c : X → X) (t : Triangle) (a : ℕ → ℕ → X) (f : ℕ → X) {y w : ℕ → ℝ} {J : ℕ → Prop}
    {e : ℕ → K} (hi : i < n)
    (ct : ∀ k, k < n → B.Acc m (y k) (J k) (mirror c t a i k * f k) (e k) (w k)) :
    B.Acc (m + (n - 1)) (∑ k ∈ range n, y k) (∀ k, k < n → J k) (kkSymSeq c t n a f i)
      (∑ k ∈ range n, e k) (∑ k ∈ range n, w k) := by
  rw [kkSymSeq_order c t a f hi]
  exact B.foldl_zero_perm (kkSymOrder_perm t hi) ct

/-! ## Rows of triangular matrices -/

theorem kkTriSeq_element {α : Type} [Add α] [Zero α] (t : Triangle) (d : Diag) {n i : ℕ}
    (hi : i < n) (term : ℕ → α) (unit : α) : kkTriSeq t d n i term unit =
      triElement (t = .lower) d n i term (if d = .explicit then term i else unit) 0 := by
  cases t <;> cases d <;> simp only [kkTriSeq, triElement, reduceCtorEq, decide_true, decide_false,
    if_true, if_false]
  · rw [show n - (i + 1) = n - 1 - i by omega]
  · rw [show n - i = 1 + (n - 1 - i) by omega, leftSum_add]
    exact leftSum_congr (s := 0 + term i) fun k _ => by rw [show i + (1 + k) = i + 1 + k by omega]
  · rfl

/-! ### Conjugation of real elements does nothing -/

theorem mirror_conj_real {F : Format} (t : Triangle) (a : ℕ → ℕ → FP F) (i j : ℕ) :
    mirror ConjOps.conj t a i j = hermOf t a i j := by
  rw [mirror_conj]
  split_ifs with e
  · subst e; rw [hermOf, if_pos rfl]; rfl
  · rfl

theorem ite_conj_real {F : Format} (t : Triangle) (a : ℕ → ℕ → FP F) (i j : ℕ) :
    (if i = j then ConjOps.conj (a i i) else hermOf t a i j) = hermOf t a i j := by
  split_ifs with e
  · subst e; rw [hermOf, if_pos rfl]; rfl
  · rfl

end StdBLAS

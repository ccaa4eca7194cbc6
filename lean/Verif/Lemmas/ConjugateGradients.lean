import Mathlib.Analysis.InnerProductSpace.PiL2
import Mathlib.Algebra.BigOperators.Ring.Finset
import Mathlib.Tactic.Linarith
import Mathlib.Tactic.LinearCombination
import Verif.Spec.LinAlg

/-!
# Lemmas for C75: the method of conjugate gradients in exact arithmetic
-/

namespace StdBLAS
open Finset

/-! ### Orthogonality -/

/-- The residuals are orthogonal and the directions are conjugate.  `ip` is the inner product and
`ah u v` is `⟨A u, v⟩`. -/
theorem cg_orthogonal {V : Type} {ip ah : V → V → ℝ} (ipc : ∀ u v, ip u v = ip v u)
    (ahc : ∀ u v, ah u v = ah v u) {r p : ℕ → V} {a b : ℕ → ℝ} {K : ℕ}
    (hr : ∀ k, k < K → ∀ v, ip (r (k + 1)) v = ip (r k) v - a k * ah (p k) v)
    (hp : ∀ k, k < K → ∀ v, ip (p (k + 1)) v = ip (r (k + 1)) v + b k * ip (p k) v)
    (hp' : ∀ k, k < K → ∀ v, ah (p (k + 1)) v = ah (r (k + 1)) v + b k * ah (p k) v)
    (h0 : ∀ v, ip (p 0) v = ip (r 0) v)
    (ha : ∀ k, k < K → ah (p k) (p k) ≠ 0 → a k * ah (p k) (p k) = ip (r k) (r k))
    (hb : ∀ k, k < K → b k * ip (r k) (r k) = ip (r (k + 1)) (r (k + 1)))
    (pos : ∀ k, ip (p k) (r k) ≠ 0 → ah (p k) (p k) ≠ 0)
    (nz : ∀ k, k < K → ip (r k) (r k) ≠ 0) :
    ∀ k, k ≤ K → (∀ j, j < k → ip (r k) (r j) = 0) ∧ (∀ j, j < k → ah (p k) (p j) = 0) ∧
      (∀ j, j < k → ip (p j) (r k) = 0) ∧ ip (p k) (r k) = ip (r k) (r k) := by
  intro k
  induction k using Nat.strong_induction_on with
  | _ k ih =>
    intro hk
    cases k with
    | zero => exact ⟨fun _ h => absurd h (Nat.not_lt_zero _), fun _ h => absurd h (Nat.not_lt_zero _),
        fun _ h => absurd h (Nat.not_lt_zero _), h0 _⟩
    | succ k =>
      have hkK : k < K := hk
      obtain ⟨i1, i2, i3, i4⟩ := ih k (Nat.lt_succ_self k) hkK.le
      have ne : ∀ j, j ≤ k → ah (p j) (p j) ≠ 0 := fun j hj => by
        refine pos j ?_
        rw [(ih j (by omega) (by omega)).2.2.2]
        exact nz j (by omega)
      have ane : ∀ j, j ≤ k → a j ≠ 0 := fun j hj e => by
        have := ha j (by omega) (ne j hj)
        rw [e, zero_mul] at this
        exact nz j (by omega) this.symm
      have hak := ha k hkK (ne k le_rfl)
      -- residual against directions
      have d : ∀ j, j < k + 1 → ip (p j) (r (k + 1)) = 0 := fun j hj => by
        rw [ipc, hr k hkK, ipc (r k)]
        rcases Nat.lt_succ_iff_lt_or_eq.1 hj with h | rfl
        · rw [i3 j h, i2 j h, mul_zero, sub_zero]
        · rw [i4, hak, sub_self]
      -- residual against residuals
      have c : ∀ j, j < k + 1 → ip (r (k + 1)) (r j) = 0 := fun j hj => by
        cases j with
        | zero => rw [ipc, ← h0]; exact d 0 hj
        | succ j =>
          have e := hp j (by omega) (r (k + 1))
          rw [d (j + 1) hj, d j (by omega), mul_zero, add_zero] at e
          rw [ipc]; exact e.symm
      refine ⟨c, fun j hj => ?_, d, ?_⟩
      · have e := hr j (by omega) (r (k + 1))
        rw [ipc (r (j + 1)), ipc (r j), c j hj] at e
        have hb' := hb k hkK
        rw [hp' k hkK, ahc (r (k + 1))]
        refine mul_left_cancel₀ (ane j (by omega)) ?_
        rcases Nat.lt_succ_iff_lt_or_eq.1 hj with h | rfl
        · rw [c (j + 1) (by omega)] at e
          rw [i2 j h]
          linarith only [e]
        · rw [← hak] at hb'
          linarith only [e, hb']
      · rw [hp k hkK, d k (Nat.lt_succ_self k), mul_zero, add_zero]

/-! ### Vectors of numbers -/

/-- The inner product of the first `n` numbers. -/
def ipN (n : Nat) (u v : Nat → ℝ) : ℝ := ∑ i ∈ range n, u i * v i

theorem ipN_comm (n : Nat) (u v : Nat → ℝ) : ipN n u v = ipN n v u :=
  sum_congr rfl fun _ _ => mul_comm _ _

theorem ipN_add (n : Nat) (u v w : Nat → ℝ) (c : ℝ) :
    ipN n (fun i => u i + c * v i) w = ipN n u w + c * ipN n v w := by
  unfold ipN
  rw [mul_sum, ← sum_add_distrib]
  exact sum_congr rfl fun _ _ => by ring1

theorem mulVec_add (n : Nat) (s : Nat → Nat → ℝ) (u v : Nat → ℝ) (c : ℝ) (i : Nat) :
    mulVec n s (fun i => u i + c * v i) i = mulVec n s u i + c * mulVec n s v i := by
  unfold mulVec
  rw [mul_sum, ← sum_add_distrib]
  exact sum_congr rfl fun _ _ => by ring1

theorem ipN_mulVec_comm (n : Nat) (s : Nat → Nat → ℝ)
    (hs : ∀ i j, i < n → j < n → s i j = s j i) (u v : Nat → ℝ) :
    ipN n (mulVec n s u) v = ipN n (mulVec n s v) u := by
  unfold ipN mulVec
  simp only [sum_mul]
  rw [sum_comm]
  exact sum_congr rfl fun i hi => sum_congr rfl fun j hj => by
    rw [hs j i (mem_range.1 hj) (mem_range.1 hi)]; ring1

theorem ipN_congr {n : Nat} {u u' : Nat → ℝ} (h : ∀ i, i < n → u i = u' i) (v : Nat → ℝ) :
    ipN n u v = ipN n u' v := sum_congr rfl fun i hi => by rw [h i (mem_range.1 hi)]

theorem ipN_self_eq_zero {n : Nat} {u : Nat → ℝ} (h : ipN n u u = 0) (i : Nat) (hi : i < n) :
    u i = 0 := by
  have := (sum_eq_zero_iff_of_nonneg fun i _ => mul_self_nonneg (u i)).1 h i (mem_range.2 hi)
  exact mul_self_eq_zero.1 this

/-- There are at most `n` orthogonal vectors of `n` numbers that are not zero. -/
theorem no_more_orthogonal {n : Nat} {r : Nat → Nat → ℝ}
    (ho : ∀ k, k ≤ n → ∀ j, j < k → ipN n (r k) (r j) = 0)
    (hz : ∀ k, k ≤ n → ipN n (r k) (r k) ≠ 0) : False := by
  let v : Fin (n + 1) → EuclideanSpace ℝ (Fin n) := fun k => WithLp.toLp 2 fun i => r k i
  have hin : ∀ k l : Fin (n + 1), inner ℝ (v k) (v l) = ipN n (r k) (r l) := fun k l => by
    rw [PiLp.inner_apply]
    unfold ipN
    rw [← Fin.sum_univ_eq_sum_range (fun i => r k i * r l i) n]
    exact sum_congr rfl fun i _ => mul_comm _ _
  have li : LinearIndependent ℝ v := by
    refine linearIndependent_of_ne_zero_of_inner_eq_zero (𝕜 := ℝ) (fun k e => ?_) ?_
    · have := hin k k
      rw [e, inner_zero_left] at this
      exact hz k (by omega) this.symm
    · intro k l hkl
      rw [hin]
      rcases lt_or_gt_of_ne (fun e => hkl (Fin.ext e) : (k : ℕ) ≠ l) with h | h
      · rw [ipN_comm]; exact ho l (by omega) k h
      · exact ho k (by omega) l h
  have := li.fintype_card_le_finrank
  rw [finrank_euclideanSpace, Fintype.card_fin, Fintype.card_fin] at this
  omega

/-! ### The iteration -/

/-- Approximation, residual and direction. -/
structure CGState where
  x : Nat → ℝ
  r : Nat → ℝ
  p : Nat → ℝ

/-- The length of the step. -/
noncomputable def CGState.alpha (n : Nat) (s : Nat → Nat → ℝ) (c : CGState) : ℝ :=
  ipN n c.r c.r / ipN n c.p (mulVec n s c.p)

/-- The new residual. -/
noncomputable def CGState.res (n : Nat) (s : Nat → Nat → ℝ) (c : CGState) (i : Nat) : ℝ :=
  c.r i + -c.alpha n s * mulVec n s c.p i

/-- The share of the old direction. -/
noncomputable def CGState.beta (n : Nat) (s : Nat → Nat → ℝ) (c : CGState) : ℝ :=
  ipN n (c.res n s) (c.res n s) / ipN n c.r c.r

open Classical in
/-- One step. -/
noncomputable def CGState.next (n : Nat) (s : Nat → Nat → ℝ) (c : CGState) : CGState :=
  if ipN n c.r c.r = 0 then c else
    { x := fun i => c.x i + c.alpha n s * c.p i
      r := c.res n s
      p := fun i => c.res n s i + c.beta n s * c.p i }

/-- All steps. -/
noncomputable def CGState.steps (n : Nat) (s : Nat → Nat → ℝ) (c : CGState) : Nat → CGState
  | 0 => c
  | k + 1 => (c.steps n s k).next n s

theorem CGState.next_residual {n : Nat} {s : Nat → Nat → ℝ} {g : Nat → ℝ} {c : CGState}
    (h : ∀ i, i < n → c.r i = g i - mulVec n s c.x i) (i : Nat) (hi : i < n) :
    (c.next n s).r i = g i - mulVec n s (c.next n s).x i := by
  unfold CGState.next
  split
  · exact h i hi
  · rw [mulVec_add]
    change c.r i + -_ * _ = _
    rw [h i hi]; ring1

theorem CGState.steps_residual {n : Nat} {s : Nat → Nat → ℝ} {g : Nat → ℝ} {c : CGState}
    (h : ∀ i, i < n → c.r i = g i - mulVec n s c.x i) (k : Nat) :
    ∀ i, i < n → (c.steps n s k).r i = g i - mulVec n s (c.steps n s k).x i := by
  induction k with
  | zero => exact h
  | succ k ih => exact fun i hi => CGState.next_residual ih i hi

theorem CGState.steps_zero {n : Nat} {s : Nat → Nat → ℝ} {c : CGState} {k : Nat}
    (h : ipN n (c.steps n s k).r (c.steps n s k).r = 0) {m : Nat} (hm : k ≤ m) :
    c.steps n s m = c.steps n s k := by
  induction m, hm using Nat.le_induction with
  | base => rfl
  | succ m _ ih =>
    change (c.steps n s m).next n s = _
    rw [ih]
    unfold CGState.next
    rw [if_pos h]

/-- After `n` steps the residual is zero. -/
theorem CGState.steps_solved {n : Nat} {s : Nat → Nat → ℝ} {c : CGState}
    (hs : ∀ i j, i < n → j < n → s i j = s j i)
    (hpd : ∀ w : Nat → ℝ, (∃ i, i < n ∧ w i ≠ 0) →
      0 < ∑ i ∈ range n, ∑ j ∈ range n, s i j * w i * w j)
    (h0 : ∀ i, i < n → c.p i = c.r i) {m : Nat} (hm : n ≤ m) :
    ipN n (c.steps n s m).r (c.steps n s m).r = 0 := by
  by_contra hne
  have nz : ∀ k, k ≤ m → ipN n (c.steps n s k).r (c.steps n s k).r ≠ 0 := fun k hk e => by
    rw [CGState.steps_zero e hk] at hne
    exact hne e
  have step : ∀ k, k < m → c.steps n s (k + 1) =
      { x := fun i => (c.steps n s k).x i + (c.steps n s k).alpha n s * (c.steps n s k).p i
        r := (c.steps n s k).res n s
        p := fun i => (c.steps n s k).res n s i + (c.steps n s k).beta n s * (c.steps n s k).p i } :=
    fun k hk => by
      change (c.steps n s k).next n s = _
      unfold CGState.next
      rw [if_neg (nz k hk.le)]
  have pos : ∀ k, ipN n (c.steps n s k).p (c.steps n s k).r ≠ 0 →
      ipN n (mulVec n s (c.steps n s k).p) (c.steps n s k).p ≠ 0 := fun k hk => by
    have hw : ∃ i, i < n ∧ (c.steps n s k).p i ≠ 0 := by
      by_contra hw
      refine hk (sum_eq_zero fun i hi => ?_)
      by_cases e : (c.steps n s k).p i = 0
      · rw [e, zero_mul]
      · exact absurd ⟨i, mem_range.1 hi, e⟩ hw
    refine ne_of_gt (lt_of_lt_of_eq (hpd _ hw) ?_)
    unfold ipN mulVec
    refine sum_congr rfl fun i _ => ?_
    rw [sum_mul]
    exact sum_congr rfl fun j _ => by ring1
  have orth := cg_orthogonal (ip := ipN n) (ah := fun u v => ipN n (mulVec n s u) v) (K := m)
    (ipN_comm n) (ipN_mulVec_comm n s hs) (r := fun k => (c.steps n s k).r)
    (p := fun k => (c.steps n s k).p) (a := fun k => (c.steps n s k).alpha n s)
    (b := fun k => (c.steps n s k).beta n s)
    (fun k hk v => by
      rw [step k hk]
      change ipN n (fun i => _ + _ * _) v = _
      rw [ipN_add]; ring1)
    (fun k hk v => by
      rw [step k hk]
      exact ipN_add n _ _ _ _)
    (fun k hk v => by
      rw [step k hk]
      change ipN n (mulVec n s fun i => _ + _ * _) v = _
      rw [ipN_congr (fun i _ => mulVec_add n s _ _ _ i), ipN_add])
    (fun v => ipN_congr h0 v)
    (fun k hk hk' => by
      change _ / _ * _ = _
      rw [ipN_comm n _ (mulVec n s _)]
      exact div_mul_cancel₀ _ hk')
    (fun k hk => by
      rw [step k hk]
      exact div_mul_cancel₀ _ (nz k hk.le))
    pos (fun k hk => nz k hk.le)
  exact no_more_orthogonal (n := n) (r := fun k => (c.steps n s k).r)
    (fun k hk j hj => (orth k (hk.trans hm)).1 j hj) fun k hk => nz k (hk.trans hm)

end StdBLAS

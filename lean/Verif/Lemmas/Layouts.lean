import Verif.Model.Layouts
import Verif.Spec.Memory
import Mathlib.Tactic.Ring
import Mathlib.Tactic.NormNum
import Mathlib.Tactic.Linarith

/-!
# Lemmas about layouts
-/

namespace StdBLAS

theorem Exts.e0_transpose {e : Exts} : e.transpose.e0 = e.e1 := by
  obtain ⟨s0, s1, d⟩ := e
  cases s0 <;> cases s1 <;> simp [Exts.transpose, Exts.e0, Exts.e1]

theorem Exts.e1_transpose {e : Exts} : e.transpose.e1 = e.e0 := by
  obtain ⟨s0, s1, d⟩ := e
  cases s0 <;> cases s1 <;> simp [Exts.transpose, Exts.e0, Exts.e1]

theorem Exts.transpose_wf {e : Exts} : e.transpose.WF := by
  obtain ⟨s0, s1, d⟩ := e
  cases s0 <;> cases s1 <;> simp [Exts.transpose, Exts.WF]

theorem leastMultiple_self {s m : Nat} (hm : 0 < m) (h : m ≤ s) : leastMultiple s m = s := by
  unfold leastMultiple
  rw [if_neg (by omega)]
  have : (m + (s - 1)) / s = 1 := by
    rw [Nat.div_eq_iff (by omega)]
    omega
  rw [this, Nat.one_mul]

theorem stridedSpan_transpose {e : Exts} {s0 s1 : Nat} :
    Layout.stridedSpan e.transpose s1 s0 = Layout.stridedSpan e s0 s1 := by
  unfold Layout.stridedSpan
  rw [Exts.e0_transpose, Exts.e1_transpose]
  by_cases h : e.e0 = 0 ∨ e.e1 = 0
  · rw [if_pos h, if_pos h.symm]
  · rw [if_neg h, if_neg (fun q => h q.symm)]
    omega

/-- Injectivity of `i + j * s` when `i < m ≤ s`. -/
theorem add_mul_inj {m s i j k l : Nat} (hs : m ≤ s) (hi : i < m) (hk : k < m)
    (h : i + j * s = k + l * s) : i = k ∧ j = l := by
  have e1 : (i + j * s) % s = i := by
    rw [Nat.add_mul_mod_self_right, Nat.mod_eq_of_lt (by omega)]
  have e2 : (k + l * s) % s = k := by
    rw [Nat.add_mul_mod_self_right, Nat.mod_eq_of_lt (by omega)]
  have h1 : i = k := by rw [← e1, ← e2, h]
  subst h1
  have h2 : j * s = l * s := by omega
  exact ⟨rfl, Nat.eq_of_mul_eq_mul_right (by omega) h2⟩

/-- Injectivity of a strided mapping whose second stride jumps over a whole run of the
first. -/
theorem strided_inj {m s0 s1 i j k l : Nat} (h0 : 1 ≤ s0) (hs : m * s0 ≤ s1) (hi : i < m)
    (hk : k < m) (h : i * s0 + j * s1 = k * s0 + l * s1) : i = k ∧ j = l := by
  have hi' : i * s0 < m * s0 := Nat.mul_lt_mul_of_pos_right hi h0
  have hk' : k * s0 < m * s0 := Nat.mul_lt_mul_of_pos_right hk h0
  obtain ⟨e, e'⟩ := add_mul_inj hs hi' hk' h
  exact ⟨Nat.eq_of_mul_eq_mul_right h0 e, e'⟩

theorem strided_lt {e : Exts} {s0 s1 i j : Nat} (hi : i < e.e0) (hj : j < e.e1) :
    i * s0 + j * s1 < Layout.stridedSpan e s0 s1 := by
  unfold Layout.stridedSpan
  rw [if_neg (by omega)]
  have h1 : i * s0 ≤ (e.e0 - 1) * s0 := Nat.mul_le_mul_right _ (by omega)
  have h2 : j * s1 ≤ (e.e1 - 1) * s1 := Nat.mul_le_mul_right _ (by omega)
  omega

theorem left_lt {m n i j : Nat} (hi : i < m) (hj : j < n) : i + j * m < m * n := by
  have : (j + 1) * m ≤ n * m := Nat.mul_le_mul_right _ hj
  have e : (j + 1) * m = j * m + m := by ring
  have e2 : n * m = m * n := Nat.mul_comm _ _
  omega

end StdBLAS

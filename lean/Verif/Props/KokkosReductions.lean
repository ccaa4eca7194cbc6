import Mathlib.Tactic.NormNum
import Verif.Lemmas.KokkosReductions
import Verif.Props.KokkosWitness

/-!
# C49: reductions of the Kokkos backend

`parReduce` cuts the index range into chunks in any way, visits each chunk in any order and
joins the partial results along any tree.  The theorems say that in exact arithmetic the
result is one and the same for all of these, and what it is; with rounded arithmetic, how far
it can be from the exact one.

`low` is the value `Kokkos::Max` starts from, a number below everything (`low ≤ 0`).

Two restrictions on the arguments, as in C48: vectors have stride 1 (`C50_strided_vector_false`),
matrices are not transposed views (`C50_transposed_matrix_false`).
-/

namespace StdBLAS
open Finset Witness
variable {α : Type}

/-! ## Any reduction -/

/-- **C49** A reduction with a commutative and associative operation has exactly one outcome,
that of the sequential loop. -/
theorem C49_trees_do_not_matter {σ : Type} (op : σ → σ → σ) (e : σ)
    (comm : ∀ a b, op a b = op b a) (assoc : ∀ a b c, op (op a b) c = op a (op b c))
    (idem : op e e = e) (n : Nat) (body : Nat → σ → Rd α σ) (w : Nat → σ) (h : Heap α)
    (hb : ∀ i < n, ∀ s, body i s h = .ok (op s (w i))) (r : Except Err (σ × Heap α)) :
    parReduce n body e op h r ↔ r = .ok ((List.range n).foldl (fun s i => op s (w i)) e, h) :=
  parReduce_iff comm assoc idem w hb r

example (r : Except Err (Nat × Heap ℤ)) :
    parReduce 4 (fun i s => pure (s + i)) 0 (fun a b => a + b) (heap ℤ) r ↔ r = .ok (6, heap ℤ) :=
  C49_trees_do_not_matter (fun a b => a + b) 0 Nat.add_comm Nat.add_assoc rfl 4 _ (fun i => i) _
    (fun _ _ _ => rfl) r

/-- **C49** Commutativity is needed: a reduction that keeps the last value it has seen has
several outcomes. -/
theorem C49_trees_matter_without_commutativity :
    ∃ (op : Nat → Nat → Nat), (∀ a b c, op (op a b) c = op a (op b c)) ∧
      ∀ h : Heap α, parReduce 2 (fun i s => pure (op s i)) 0 op h (.ok (0, h)) ∧
        parReduce 2 (fun i s => pure (op s i)) 0 op h (.ok (1, h)) :=
  ⟨fun _ b => b, fun _ _ _ => rfl, fun _ =>
    ⟨⟨.chunk [1, 0], by unfold RedTree.Covers RedTree.visits; decide, rfl⟩,
      ⟨.join (.chunk [0]) (.chunk [1]), by unfold RedTree.Covers RedTree.visits; decide, rfl⟩⟩⟩

/-! ## dot, vector_abs_sum, vector_norm2 -/

/-- **C49** `dot(exec, x, y, init)` is `init + Σ x(k) * y(k)`, without conjugation. -/
theorem C49_dot [NonUnitalNonAssocSemiring α] (x y : KVec) (init : α) (h : Heap α) (f g : Nat → α)
    (hx : x.mdspan.Holds h f) (hy : y.mdspan.Holds h g) (cx : x.stride = 1) (cy : y.stride = 1)
    (hext : x.ext = y.ext) :
    Surely (kkDot x y init) h fun r h' =>
      r = init + ∑ k ∈ range x.ext, f k * g k ∧ h' = h := by
  unfold kkDot
  rw [KVec.view_eq cx, KVec.view_eq cy]
  refine surely_require_bind hext (surely_bind (parReduce_sum (fun k => f k * g k) ?_ ?_))
  · intro i hi s
    have hi' : i < y.mdspan.ext := by change i < y.ext; rw [← hext]; exact hi
    rw [Rd.bind_ok (hx.look hi), Rd.bind_ok (hy.look hi')]; rfl
  · exact surely_pure.2 ⟨add_comm _ _, rfl⟩

example : Surely (kkDot kx ky 10) (heap ℤ) fun r h' =>
    r = 10 + ∑ k ∈ range 3, vals ℤ kx.mdspan k * vals ℤ ky.mdspan k ∧ h' = heap ℤ :=
  C49_dot kx ky 10 _ _ _ (holds bkx) (holds bky) rfl rfl rfl

/-- **C49** `vector_abs_sum(exec, x, init)` is `init + Σ |x(k)|`. -/
theorem C49_abs_sum [AbsOps α] (x : KVec) (init : ℝ) (h : Heap α) (f : Nat → α)
    (hx : x.mdspan.Holds h f) (cx : x.stride = 1) :
    Surely (kkAbsSum x init) h fun r h' =>
      r = init + ∑ k ∈ range x.ext, AbsOps.abs (f k) ∧ h' = h := by
  unfold kkAbsSum
  rw [KVec.view_eq cx]
  refine surely_bind (parReduce_sum (fun k => AbsOps.abs (f k)) ?_ ?_)
  · intro i hi s
    rw [Rd.bind_ok (hx.look hi)]; rfl
  · exact surely_pure.2 ⟨add_comm _ _, rfl⟩

example : Surely (kkAbsSum kx 10) (heap ℂ) fun r h' =>
    r = 10 + ∑ k ∈ range 3, ‖vals ℂ kx.mdspan k‖ ∧ h' = heap ℂ :=
  C49_abs_sum kx 10 _ _ (holds bkx) rfl

/-- **C49** `vector_norm2(exec, x, init)` is `√(init + Σ |x(k)|²)`. -/
theorem C49_norm2 [AbsOps α] (x : KVec) (init : ℝ) (h : Heap α) (f : Nat → α)
    (hx : x.mdspan.Holds h f) (cx : x.stride = 1) :
    Surely (kkNorm2 x init) h fun r h' =>
      r = Real.sqrt (init + ∑ k ∈ range x.ext, AbsOps.abs (f k) ^ 2) ∧ h' = h := by
  unfold kkNorm2
  rw [KVec.view_eq cx]
  refine surely_bind (parReduce_sum (fun k => AbsOps.abs (f k) ^ 2) ?_ ?_)
  · intro i hi s
    rw [Rd.bind_ok (hx.look hi)]
    simp only [pow_two]
    rfl
  · exact surely_pure.2 ⟨by rw [add_comm]; rfl, rfl⟩

example : Surely (kkNorm2 ky 4) (heap ℝ) fun r h' =>
    r = Real.sqrt (4 + ∑ k ∈ range 3, |vals ℝ ky.mdspan k| ^ 2) ∧ h' = heap ℝ :=
  C49_norm2 ky 4 _ _ (holds bky) rfl

/-! ## vector_sum_of_squares -/

/-- **C49** `vector_sum_of_squares(exec, x, init)` on a vector that is not zero, `m` its largest
magnitude: the scaling factor is the larger of `m` and the old one, the new part of the sum
is scaled by it, and the old part is divided by `m²`. -/
theorem C49_sum_of_squares [AbsOps α] (low : ℝ) (x : KVec) (init : SumOfSquares) (h : Heap α)
    (f : Nat → α) (hx : x.mdspan.Holds h f) (cx : x.stride = 1) (hlow : low ≤ 0) (m : ℝ)
    (hm : ∃ k < x.ext, AbsOps.abs (f k) = m) (hm' : ∀ k < x.ext, AbsOps.abs (f k) ≤ m)
    (hpos : 0 < m) :
    Surely (kkSumOfSquares low x init) h fun r h' => h' = h ∧
      r.scalingFactor = max m init.scalingFactor ∧
      r.scaledSumOfSquares = ∑ k ∈ range x.ext, (AbsOps.abs (f k) / r.scalingFactor) ^ 2 +
        init.scalingFactor ^ 2 * init.scaledSumOfSquares / m ^ 2 := by
  unfold kkSumOfSquares
  rw [KVec.view_eq cx]
  refine surely_bind (parReduce_max (fun k => AbsOps.abs (f k)) ?_ ?_)
  · intro i hi s
    rw [Rd.bind_ok (hx.look hi)]; rfl
  have e : maxFold low x.mdspan.ext (fun k => AbsOps.abs (f k)) = m :=
    maxFold_eq (hlow.trans hpos.le) hm hm'
  simp only [e]
  have hs : max m init.scalingFactor ≠ 0 := (lt_max_of_lt_left hpos).ne'
  refine surely_bind (parReduce_sum
    (fun k => (AbsOps.abs (f k) / max m init.scalingFactor) ^ 2) ?_ ?_)
  · intro i hi s
    rw [Rd.bind_ok (hx.look hi), Rd.bind_ok (divLook_ok hs)]
    simp only [pow_two]
    rfl
  refine surely_bind (surely_lift.2 (ends_divChecked.2 ⟨(mul_pos hpos hpos).ne', ?_⟩))
  refine surely_pure.2 ⟨rfl, rfl, ?_⟩
  simp only [pow_two]
  rfl

example : Surely (kkSumOfSquares (-100) kx ⟨2, 5⟩) (heap ℝ) fun r h' => h' = heap ℝ ∧
    r.scalingFactor = max 7 2 ∧ r.scaledSumOfSquares =
      ∑ k ∈ range 3, (|vals ℝ kx.mdspan k| / r.scalingFactor) ^ 2 + 2 ^ 2 * 5 / 7 ^ 2 := by
  refine C49_sum_of_squares (-100) kx ⟨2, 5⟩ _ _ (holds bkx) rfl (by norm_num) 7
    ⟨0, by decide, ?_⟩ ?_ (by norm_num)
  · simp [vals, kx, KVec.mdspan, AbsOps.abs]
  · intro k hk
    have : k = 0 ∨ k = 1 ∨ k = 2 := by simp only [kx] at hk; omega
    rcases this with rfl | rfl | rfl <;> norm_num [vals, kx, KVec.mdspan, AbsOps.abs, abs_le]

/-! ## Matrix norms -/

/-- **C49** `matrix_frob_norm(exec, A, init)` of a matrix that is not zero and has more than one
element is `√(init + ΣΣ |A(i,j)|²)`. -/
theorem C49_frob_norm [AbsOps α] [LawfulAbs α] (low : ℝ) (A : KMat) (init : ℝ) (h : Heap α)
    (f : Nat → Nat → α) (hA : A.Holds h f) (cA : A.transposed = false)
    (hmore : 1 < A.rows * A.cols)
    (hne : ∃ i j, i < A.rows ∧ j < A.cols ∧ AbsOps.abs (f i j) ≠ 0) :
    Surely (kkFrobNorm low A init) h fun r h' => h' = h ∧
      r = Real.sqrt (init + ∑ i ∈ range A.rows, ∑ j ∈ range A.cols, AbsOps.abs (f i j) ^ 2) := by
  obtain ⟨i0, j0, hi0, hj0, h0⟩ := hne
  unfold kkFrobNorm
  rw [if_neg (by omega), if_neg (by rintro ⟨e1, e2⟩; rw [e1, e2] at hmore; omega),
    KMat.view_eq cA]
  refine surely_bind (parReduce_max (fun k => AbsOps.abs (f (k / A.cols) (k % A.cols))) ?_ ?_)
  · intro k hk s
    obtain ⟨h1, h2⟩ := div_mod_lt hk
    rw [Rd.bind_ok (hA.look h1 h2)]; rfl
  set m := maxFold low (A.rows * A.cols) (fun k => AbsOps.abs (f (k / A.cols) (k % A.cols)))
    with hmdef
  have hm : m ≠ 0 := by
    have hk : A.cols * i0 + j0 < A.rows * A.cols := by
      calc A.cols * i0 + j0 < A.cols * i0 + A.cols := by omega
        _ = A.cols * (i0 + 1) := by ring
        _ ≤ A.cols * A.rows := Nat.mul_le_mul_left _ hi0
        _ = A.rows * A.cols := Nat.mul_comm _ _
    have := (maxFold_spec low (A.rows * A.cols)
      (fun k => AbsOps.abs (f (k / A.cols) (k % A.cols)))).2.1 _ hk
    have hc : 0 < A.cols := by omega
    simp only [Nat.mul_add_div hc, Nat.mul_add_mod, Nat.div_eq_of_lt hj0, Nat.mod_eq_of_lt hj0,
      Nat.add_zero] at this
    have h1 := lt_of_le_of_ne (LawfulAbs.abs_nonneg (f i0 j0)) (Ne.symm h0)
    exact (h1.trans_le this).ne'
  refine surely_bind (parReduce_sum
    (fun k => (AbsOps.abs (f (k / A.cols) (k % A.cols)) / m) ^ 2) ?_ ?_)
  · intro k hk s
    obtain ⟨h1, h2⟩ := div_mod_lt hk
    rw [Rd.bind_ok (hA.look h1 h2), Rd.bind_ok (divLook_ok hm)]
    simp only [pow_two]
    rfl
  refine surely_pure.2 ⟨rfl, ?_⟩
  rw [sum_div_mod A.rows A.cols (fun i j => (AbsOps.abs (f i j) / m) ^ 2), Finset.mul_sum]
  congr 2
  refine Finset.sum_congr rfl fun i _ => ?_
  rw [Finset.mul_sum]
  refine Finset.sum_congr rfl fun j _ => ?_
  field_simp

example : Surely (kkFrobNorm (-100) kT 3) (heap ℝ) fun r h' => h' = heap ℝ ∧
    r = Real.sqrt (3 + ∑ i ∈ range 3, ∑ j ∈ range 2, |mvals ℝ kT.toMat i j| ^ 2) :=
  C49_frob_norm (-100) kT 3 _ _ (mholds bT) rfl (by decide)
    ⟨0, 0, by decide, by decide, by norm_num [mvals, kT, T, AbsOps.abs]⟩

/-- **C49** `matrix_inf_norm(exec, A, init)` is `init` plus the largest row sum of magnitudes. -/
theorem C49_inf_norm [AbsOps α] [LawfulAbs α] (low : ℝ) (A : KMat) (init : ℝ) (h : Heap α)
    (f : Nat → Nat → α) (hA : A.Holds h f) (cA : A.transposed = false) (hlow : low ≤ 0) :
    Surely (kkInfNorm low A init) h fun r h' => h' = h ∧
      ((A.rows = 0 ∨ A.cols = 0) → r = init) ∧
      (A.rows ≠ 0 → A.cols ≠ 0 →
        (∃ i < A.rows, r = init + ∑ j ∈ range A.cols, AbsOps.abs (f i j)) ∧
          ∀ i < A.rows, init + ∑ j ∈ range A.cols, AbsOps.abs (f i j) ≤ r) := by
  unfold kkInfNorm
  split
  · next h0 => exact surely_pure.2 ⟨rfl, fun _ => rfl, by omega⟩
  next h0 =>
  rw [KMat.view_eq cA]
  refine surely_bind (parReduce_max (fun i => ∑ j ∈ range A.cols, AbsOps.abs (f i j)) ?_ ?_)
  · intro i hi s
    rw [Rd.bind_ok (hA.look hi (by omega))]
    unfold Rd.foldUp
    rw [Rd.bind_ok (Rd.foldlM_ok (fun s j => s + AbsOps.abs (f i j)) ?_)]
    · rw [foldl_range'_sum, show 1 + (A.cols - 1) = A.cols by omega,
        ← Finset.sum_eq_sum_Ico_succ_bot (by omega : 0 < A.cols) (fun j => AbsOps.abs (f i j)),
        ← Finset.range_eq_Ico]
      rfl
    · intro j hj s
      rw [Rd.bind_ok (hA.look hi (mem_up.1 hj).2)]; rfl
  refine surely_pure.2 ⟨rfl, fun e => absurd e h0, fun hr _ => ?_⟩
  obtain ⟨⟨i, hi, e⟩, hle⟩ := maxFold_pos (low := low) (Nat.pos_of_ne_zero hr)
    (w := fun i => ∑ j ∈ range A.cols, AbsOps.abs (f i j))
    fun i _ => hlow.trans (Finset.sum_nonneg fun j _ => LawfulAbs.abs_nonneg _)
  exact ⟨⟨i, hi, by rw [e]⟩, fun k hk => add_le_add_right (hle k hk) init⟩

example : Surely (kkInfNorm (-100) kT 1) (heap ℂ) fun r _ =>
    ∃ i < 3, r = 1 + ∑ j ∈ range 2, ‖mvals ℂ kT.toMat i j‖ :=
  (C49_inf_norm (-100) kT 1 _ _ (mholds bT) rfl (by norm_num)).mono
    fun _ _ r => (r.2.2 (by decide) (by decide)).1

/-- **C49** `matrix_one_norm(exec, A, init)` is `init` plus the largest column sum of
magnitudes.  The case of columns but no rows is excluded (`C50_one_norm_no_rows_false`). -/
theorem C49_one_norm [AbsOps α] [LawfulAbs α] (low : ℝ) (A : KMat) (init : ℝ) (h : Heap α)
    (f : Nat → Nat → α) (hA : A.Holds h f) (cA : A.transposed = false) (hlow : low ≤ 0)
    (hrows : A.rows = 0 → A.cols = 0) :
    Surely (kkOneNorm low A init) h fun r h' => h' = h ∧
      (A.cols = 0 → r = init) ∧
      (A.cols ≠ 0 →
        (∃ j < A.cols, r = init + ∑ i ∈ range A.rows, AbsOps.abs (f i j)) ∧
          ∀ j < A.cols, init + ∑ i ∈ range A.rows, AbsOps.abs (f i j) ≤ r) := by
  unfold kkOneNorm
  split
  · next h0 => exact surely_pure.2 ⟨rfl, fun _ => rfl, fun e => absurd h0 e⟩
  next h0 =>
  rw [KMat.view_eq cA]
  have hr : 0 < A.rows := by omega
  refine surely_bind (parReduce_max (fun j => ∑ i ∈ range A.rows, AbsOps.abs (f i j)) ?_ ?_)
  · intro j hj s
    rw [Rd.bind_ok (hA.look hr hj)]
    unfold Rd.foldUp
    rw [Rd.bind_ok (Rd.foldlM_ok (fun s i => s + AbsOps.abs (f i j)) ?_)]
    · rw [foldl_range'_sum, show 1 + (A.rows - 1) = A.rows by omega,
        ← Finset.sum_eq_sum_Ico_succ_bot hr (fun i => AbsOps.abs (f i j)), ← Finset.range_eq_Ico]
      rfl
    · intro i hi s
      rw [Rd.bind_ok (hA.look (mem_up.1 hi).2 hj)]; rfl
  refine surely_pure.2 ⟨rfl, fun e => absurd e h0, fun hc => ?_⟩
  obtain ⟨⟨j, hj, e⟩, hle⟩ := maxFold_pos (low := low) (Nat.pos_of_ne_zero hc)
    (w := fun j => ∑ i ∈ range A.rows, AbsOps.abs (f i j))
    fun j _ => hlow.trans (Finset.sum_nonneg fun i _ => LawfulAbs.abs_nonneg _)
  exact ⟨⟨j, hj, by rw [e]⟩, fun k hk => add_le_add_right (hle k hk) init⟩

example : Surely (kkOneNorm (-100) kW 1) (heap ℤ) fun r _ =>
    ∃ j < 3, r = 1 + ∑ i ∈ range 2, |(mvals ℤ kW.toMat i j : ℝ)| :=
  (C49_one_norm (-100) kW 1 _ _ (mholds bW) rfl (by norm_num) (by decide)).mono
    fun _ _ r => (r.2.2 (by decide)).1

/-! ## Rounding -/

section rounding
variable {F K : Type} [Zero F] [Add F] [Sub F] [Mul F] [Div F] [NormedField K]

/-- **C49** `dot(exec, x, y, init)` in rounded arithmetic: every reduction tree has one value, and
it differs from the exact one by at most `((1+u)^(d+2) - 1) * (|init| + Σ |x(k)| |y(k)|)`,
where `d` is the depth of the tree. -/
theorem C49_dot_rounding (val : F → K) (u : ℝ) (R : Rounded val u) (x y : KVec) (init : F)
    (h : Heap F) (f g : Nat → F) (hx : x.mdspan.Holds h f) (hy : y.mdspan.Holds h g)
    (cx : x.stride = 1) (cy : y.stride = 1) (hext : x.ext = y.ext) :
    ∃ value : RedTree → F,
      (∀ r, kkDot x y init h r ↔ ∃ t : RedTree, t.Covers x.ext ∧ r = .ok (value t, h)) ∧
      ∀ t : RedTree, t.Covers x.ext →
        ‖val (value t) - (val init + ∑ k ∈ range x.ext, val (f k) * val (g k))‖ ≤
          ((1 + u) ^ (t.depth + 2) - 1) *
            (‖val init‖ + ∑ k ∈ range x.ext, ‖val (f k)‖ * ‖val (g k)‖) := by
  classical
  set body : Nat → F → Rd F F := fun i update => do
    let a ← x.mdspan.look i
    let b ← y.mdspan.look i
    pure (update + a * b) with hbody
  have run : ∀ t : RedTree, t.Covers x.ext → ∃ r, t.eval body 0 (fun a b => a + b) h = .ok r ∧
      Close u (1 + t.depth) (val r) (∑ k ∈ range x.ext, val (f k) * val (g k))
        (∑ k ∈ range x.ext, ‖val (f k)‖ * ‖val (g k)‖) := by
    intro t ht
    obtain ⟨r, hr, hc⟩ := t.eval_rounded R (body := body) (h := h) (fun k => f k * g k)
      (m := 1) (e := fun k => val (f k) * val (g k)) (a := fun k => ‖val (f k)‖ * ‖val (g k)‖)
      (fun k _ => R.close_mul (f k) (g k)) (by
        intro i hi s
        have hi : i < x.mdspan.ext := List.mem_range.1 (ht.mem_iff.1 hi)
        have hi' : i < y.mdspan.ext := by change i < y.ext; rw [← hext]; exact hi
        rw [hbody]
        simp only
        rw [Rd.bind_ok (hx.look hi), Rd.bind_ok (hy.look hi')]; rfl)
    refine ⟨r, hr, ?_⟩
    rw [(ht.map _).sum_eq, (ht.map _).sum_eq, List.range_eq_range', list_sum_range',
      list_sum_range'] at hc
    exact hc
  choose! v hv hc using run
  have step : ∀ t : RedTree, t.Covers x.ext →
      (t.eval body 0 (fun a b => a + b)).prog h = .ok (v t, h) := by
    intro t ht
    unfold Rd.prog
    rw [hv t ht]; rfl
  refine ⟨fun t => v t + init, ?_, ?_⟩
  · intro r
    unfold kkDot
    rw [KVec.view_eq cx, KVec.view_eq cy, require, if_pos hext, sched_pure_bind]
    constructor
    · rintro (⟨e, ⟨t, ht, he⟩, rfl⟩ | ⟨b, h', ⟨t, ht, he⟩, hr⟩)
      · have := step t ht
        rw [← he] at this
        cases this
      · have := step t ht
        rw [← he] at this
        cases this
        exact ⟨t, ht, hr.symm⟩
    · rintro ⟨t, ht, rfl⟩
      exact Or.inr ⟨_, h, ⟨t, ht, (step t ht).symm⟩, rfl⟩
  · intro t ht
    have := R.close_add (hc t ht) (Close.refl (v := val init) (1 + t.depth) R.nonneg)
    rw [show t.depth + 2 = 1 + t.depth + 1 by omega, add_comm (val init), add_comm ‖val init‖]
    exact this.2

end rounding

example : ∃ value : RedTree → Flt 53,
    (∀ r, kkDot kx ky ⟨2⟩ (heap (Flt 53)) r ↔
      ∃ t : RedTree, t.Covers 3 ∧ r = .ok (value t, heap (Flt 53))) ∧
    ∀ t : RedTree, t.Covers 3 →
      ‖(value t).val - (2 + ∑ k ∈ range 3, (vals (Flt 53) kx.mdspan k).val *
        (vals (Flt 53) ky.mdspan k).val)‖ ≤ ((1 + (2 : ℝ)⁻¹ ^ 53) ^ (t.depth + 2) - 1) *
        (‖(2 : ℝ)‖ + ∑ k ∈ range 3, ‖(vals (Flt 53) kx.mdspan k).val‖ *
          ‖(vals (Flt 53) ky.mdspan k).val‖) :=
  C49_dot_rounding Flt.val _ (Rounded.flt 53) kx ky ⟨2⟩ _ _ _ (holds bkx) (holds bky) rfl rfl rfl

end StdBLAS

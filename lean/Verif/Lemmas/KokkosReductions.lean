import Mathlib.Tactic.Positivity
import Mathlib.Tactic.FieldSimp
import Verif.Lemmas.Kokkos
import Verif.Lemmas.Rounding

/-! # Lemmas about parallel reductions -/

namespace StdBLAS
open Finset
variable {α β σ : Type} {h : Heap α}

/-! ## Code that only reads -/

theorem Rd.bind_ok {p : Rd α β} {f : β → Rd α σ} {b : β} (hp : p h = .ok b) :
    (p >>= f) h = f b h := by
  change Except.bind (p h) (fun b => f b h) = _
  rw [hp]; rfl

theorem Rd.bind_error {p : Rd α β} {f : β → Rd α σ} {e : Err} (hp : p h = .error e) :
    (p >>= f) h = .error e := by
  change Except.bind (p h) (fun b => f b h) = _
  rw [hp]; rfl

theorem Rd.pure_ok (b : β) : (pure b : Rd α β) h = .ok b := rfl

theorem Rd.foldlM_ok {ι : Type} {l : List ι} {body : σ → ι → Rd α σ} (step : σ → ι → σ) {s : σ}
    (hb : ∀ i ∈ l, ∀ s, body s i h = .ok (step s i)) :
    (l.foldlM body s : Rd α σ) h = .ok (l.foldl step s) := by
  induction l generalizing s with
  | nil => rfl
  | cons i l ih =>
    rw [List.foldlM_cons, Rd.bind_ok (hb i (by simp) s), List.foldl_cons]
    exact ih fun j hj => hb j (by simp [hj])

theorem Vec.Holds.look {x : Vec} {f : Nat → α} (hx : x.Holds h f) {i : Nat} (hi : i < x.ext) :
    x.look i h = .ok (f i) := by
  unfold Vec.look
  rw [if_pos hi]
  change (match h (x.addr i) with | some v => Except.ok v | none => Except.error Err.ub) = _
  rw [hx i hi]

theorem Mat.Holds.look {A : Mat} {f : Nat → Nat → α} (hA : A.Holds h f) {i j : Nat}
    (hi : i < A.rows) (hj : j < A.cols) : A.look i j h = .ok (f i j) := by
  unfold Mat.look
  rw [if_pos ⟨hi, hj⟩]
  change (match h (A.addr i j) with | some v => Except.ok v | none => Except.error Err.ub) = _
  rw [hA i j hi hj trivial]

theorem divLook_ok {a b : ℝ} (hb : b ≠ 0) : (divLook a b : Rd α ℝ) h = .ok (a / b) := by
  unfold divLook
  rw [if_neg hb]; rfl

theorem divLook_error {a b : ℝ} (hb : b = 0) : (divLook a b : Rd α ℝ) h = .error .divZero := by
  unfold divLook
  rw [if_pos hb]; rfl

/-! ## The value of a reduction -/

section eval
variable {op : σ → σ → σ} {e : σ}

theorem foldl_op_start (assoc : ∀ a b c, op (op a b) c = op a (op b c))
    (w : Nat → σ) (l : List Nat) (a b : σ) :
    l.foldl (fun s i => op s (w i)) (op a b) = op a (l.foldl (fun s i => op s (w i)) b) := by
  induction l generalizing b with
  | nil => rfl
  | cons i l ih => rw [List.foldl_cons, List.foldl_cons, assoc, ih]

theorem RedTree.eval_ok (comm : ∀ a b, op a b = op b a)
    (assoc : ∀ a b c, op (op a b) c = op a (op b c)) (idem : op e e = e)
    {body : Nat → σ → Rd α σ} (w : Nat → σ) (t : RedTree)
    (hb : ∀ i ∈ t.visits, ∀ s, body i s h = .ok (op s (w i))) :
    t.eval body e op h = .ok (t.visits.foldl (fun s i => op s (w i)) e) := by
  induction t with
  | chunk l => exact Rd.foldlM_ok (fun s i => op s (w i)) hb
  | join s t ihs iht =>
    have h1 := ihs fun i hi => hb i (by simp [RedTree.visits, hi])
    have h2 := iht fun i hi => hb i (by simp [RedTree.visits, hi])
    unfold RedTree.eval
    rw [Rd.bind_ok h1, Rd.bind_ok h2, Rd.pure_ok]
    congr 1
    change _ = (s.visits ++ t.visits).foldl _ e
    rw [List.foldl_append, ← foldl_op_start assoc]
    congr 1
    have := foldl_op_start assoc w s.visits e e
    rw [idem] at this
    rw [comm, ← this]

theorem RedTree.eval_error {body : Nat → σ → Rd α σ} {err : Err} (t : RedTree)
    (hb : ∀ i ∈ t.visits, ∀ s, body i s h = .error err) (hne : t.visits ≠ []) :
    t.eval body e op h = .error err := by
  induction t with
  | chunk l =>
    cases l with
    | nil => exact absurd rfl hne
    | cons i l =>
      unfold RedTree.eval
      rw [List.foldlM_cons]
      exact Rd.bind_error (hb i (by simp [RedTree.visits]) e)
  | join s t ihs iht =>
    unfold RedTree.eval
    by_cases hs : s.visits = []
    · have hs' : ∃ v, s.eval body e op h = .ok v := by
        clear ihs iht hb hne
        induction s with
        | chunk l =>
          have : l = [] := hs
          subst this
          exact ⟨e, rfl⟩
        | join s t ihs iht =>
          have hst : s.visits = [] ∧ t.visits = [] := List.append_eq_nil_iff.1 hs
          obtain ⟨v, hv⟩ := ihs hst.1
          obtain ⟨w, hw⟩ := iht hst.2
          unfold RedTree.eval
          exact ⟨op v w, by rw [Rd.bind_ok hv, Rd.bind_ok hw]; rfl⟩
      obtain ⟨v, hv⟩ := hs'
      rw [Rd.bind_ok hv]
      exact Rd.bind_error (iht (fun i hi => hb i (by simp [RedTree.visits, hi]))
        (by simpa [RedTree.visits, hs] using hne))
    · exact Rd.bind_error (ihs (fun i hi => hb i (by simp [RedTree.visits, hi])) hs)

theorem parReduce_iff (comm : ∀ a b, op a b = op b a)
    (assoc : ∀ a b c, op (op a b) c = op a (op b c)) (idem : op e e = e) {n : Nat}
    {body : Nat → σ → Rd α σ} (w : Nat → σ)
    (hb : ∀ i < n, ∀ s, body i s h = .ok (op s (w i))) (r : Except Err (σ × Heap α)) :
    parReduce n body e op h r ↔ r = .ok ((List.range n).foldl (fun s i => op s (w i)) e, h) := by
  have key : ∀ t : RedTree, t.Covers n →
      (t.eval body e op).prog h = .ok ((List.range n).foldl (fun s i => op s (w i)) e, h) := by
    intro t ht
    have := t.eval_ok comm assoc idem w
      (fun i hi => hb i (List.mem_range.1 (ht.mem_iff.1 hi)))
    unfold Rd.prog
    rw [this]
    have rc : RightCommutative (fun (s : σ) i => op s (w i)) :=
      ⟨fun a i j => by rw [assoc, comm (w i), ← assoc]⟩
    rw [ht.foldl_eq]
    rfl
  constructor
  · rintro ⟨t, ht, rfl⟩
    exact key t ht
  · rintro rfl
    exact ⟨.chunk (List.range n), List.Perm.refl _,
      (key (.chunk (List.range n)) (List.Perm.refl _)).symm⟩

theorem parReduce_surely (comm : ∀ a b, op a b = op b a)
    (assoc : ∀ a b c, op (op a b) c = op a (op b c)) (idem : op e e = e) {n : Nat}
    {body : Nat → σ → Rd α σ} (w : Nat → σ)
    (hb : ∀ i < n, ∀ s, body i s h = .ok (op s (w i))) {Q : σ → Heap α → Prop}
    (q : Q ((List.range n).foldl (fun s i => op s (w i)) e) h) :
    Surely (parReduce n body e op) h Q := by
  have key := parReduce_iff comm assoc idem w hb
  exact ⟨⟨_, (key _).2 rfl⟩, fun r hr => ⟨_, _, (key r).1 hr, q⟩⟩

theorem parReduce_fails {n : Nat} {body : Nat → σ → Rd α σ} {err : Err} (hn : 0 < n)
    (hb : ∀ i < n, ∀ s, body i s h = .error err) : SurelyFails (parReduce n body e op) h err := by
  have key : ∀ t : RedTree, t.Covers n → (t.eval body e op).prog h = .error err := by
    intro t ht
    have := t.eval_error (op := op) (e := e)
      (fun i hi => hb i (List.mem_range.1 (ht.mem_iff.1 hi)))
      (fun h0 => by
        have := ht.length_eq
        simp [h0] at this
        omega)
    unfold Rd.prog
    rw [this]; rfl
  intro r
  constructor
  · rintro ⟨t, ht, rfl⟩
    exact key t ht
  · rintro rfl
    exact ⟨.chunk (List.range n), List.Perm.refl _,
      (key (.chunk (List.range n)) (List.Perm.refl _)).symm⟩

end eval

theorem foldl_range_sum [AddCommMonoid σ] (n : Nat) (w : Nat → σ) :
    (List.range n).foldl (fun s i => s + w i) 0 = ∑ i ∈ range n, w i := by
  rw [List.range_eq_range', foldl_range'_sum]
  simp

theorem parReduce_sum [AddCommMonoid σ] {n : Nat} {body : Nat → σ → Rd α σ} (w : Nat → σ)
    (hb : ∀ i < n, ∀ s, body i s h = .ok (s + w i)) {Q : σ → Heap α → Prop}
    (q : Q (∑ i ∈ range n, w i) h) : Surely (parReduce n body 0 (fun a b => a + b)) h Q := by
  refine parReduce_surely add_comm add_assoc (add_zero 0) w hb ?_
  rw [foldl_range_sum]; exact q

/-- The largest of `low` and `n` numbers. -/
noncomputable def maxFold (low : ℝ) (n : Nat) (w : Nat → ℝ) : ℝ :=
  (List.range n).foldl (fun s i => max s (w i)) low

theorem parReduce_max {low : ℝ} {n : Nat} {body : Nat → ℝ → Rd α ℝ} (w : Nat → ℝ)
    (hb : ∀ i < n, ∀ s, body i s h = .ok (max s (w i))) {Q : ℝ → Heap α → Prop}
    (q : Q (maxFold low n w) h) : Surely (parReduce n body low max) h Q :=
  parReduce_surely max_comm max_assoc (max_self low) w hb q

theorem maxFold_succ (low : ℝ) (n : Nat) (w : Nat → ℝ) :
    maxFold low (n + 1) w = max (maxFold low n w) (w n) := by
  unfold maxFold
  rw [List.range_succ, List.foldl_append]; rfl

theorem maxFold_spec (low : ℝ) (n : Nat) (w : Nat → ℝ) :
    low ≤ maxFold low n w ∧ (∀ i < n, w i ≤ maxFold low n w) ∧
      (maxFold low n w = low ∨ ∃ i < n, maxFold low n w = w i) := by
  induction n with
  | zero => exact ⟨le_rfl, by omega, Or.inl rfl⟩
  | succ n ih =>
    rw [maxFold_succ]
    refine ⟨ih.1.trans (le_max_left _ _), ?_, ?_⟩
    · intro i hi
      rcases Nat.lt_succ_iff_lt_or_eq.1 hi with hi | rfl
      · exact (ih.2.1 i hi).trans (le_max_left _ _)
      · exact le_max_right _ _
    · rcases max_choice (maxFold low n w) (w n) with e | e
      · rw [e]
        rcases ih.2.2 with e' | ⟨i, hi, e'⟩
        · exact Or.inl e'
        · exact Or.inr ⟨i, by omega, e'⟩
      · rw [e]; exact Or.inr ⟨n, by omega, rfl⟩

theorem maxFold_pos {low : ℝ} {n : Nat} {w : Nat → ℝ} (hn : 0 < n) (hl : ∀ i < n, low ≤ w i) :
    (∃ i < n, maxFold low n w = w i) ∧ ∀ i < n, w i ≤ maxFold low n w := by
  obtain ⟨_, h2, h3⟩ := maxFold_spec low n w
  refine ⟨?_, h2⟩
  rcases h3 with e | e
  · exact ⟨0, hn, le_antisymm (e.trans_le (hl 0 hn)) (h2 0 hn)⟩
  · exact e

theorem maxFold_eq {low : ℝ} {n : Nat} {w : Nat → ℝ} {m : ℝ} (hl : low ≤ m)
    (h1 : ∃ i < n, w i = m) (h2 : ∀ i < n, w i ≤ m) : maxFold low n w = m := by
  obtain ⟨_, h3, h4⟩ := maxFold_spec low n w
  obtain ⟨i, hi, e⟩ := h1
  refine le_antisymm ?_ (e ▸ h3 i hi)
  rcases h4 with e' | ⟨k, hk, e'⟩
  · rw [e']; exact hl
  · rw [e']; exact h2 k hk

/-! ## Rows and columns in one index -/

theorem div_mod_lt {r c k : Nat} (hk : k < r * c) : k / c < r ∧ k % c < c := by
  have hc : 0 < c := by
    rcases Nat.eq_zero_or_pos c with e | e
    · subst e; simp at hk
    · exact e
  exact ⟨(Nat.div_lt_iff_lt_mul hc).2 hk, Nat.mod_lt _ hc⟩

theorem sum_div_mod [AddCommMonoid σ] (r c : Nat) (f : Nat → Nat → σ) :
    ∑ k ∈ range (r * c), f (k / c) (k % c) = ∑ i ∈ range r, ∑ j ∈ range c, f i j := by
  induction r with
  | zero => simp
  | succ r ih =>
    rw [Nat.succ_mul, Finset.sum_range_add, ih, Finset.sum_range_succ]
    congr 1
    refine Finset.sum_congr rfl fun j hj => ?_
    have hj := Finset.mem_range.1 hj
    have hc : 0 < c := by omega
    rw [Nat.mul_comm r c, Nat.mul_add_div hc, Nat.mul_add_mod, Nat.div_eq_of_lt hj,
      Nat.mod_eq_of_lt hj, Nat.add_zero]

/-! ## Rounding -/

section rounding
variable {F K : Type} [Zero F] [Add F] [Sub F] [Mul F] [Div F] [NormedField K] {val : F → K} {u : ℝ}

/-- Relative errors accumulate along the path from a term to the root of the tree. -/
theorem RedTree.eval_rounded (R : Rounded val u) {h : Heap α} {body : Nat → F → Rd α F}
    (w : Nat → F) {m : Nat} {e : Nat → K} {a : Nat → ℝ} (t : RedTree)
    (hc : ∀ i ∈ t.visits, Close u m (val (w i)) (e i) (a i))
    (hb : ∀ i ∈ t.visits, ∀ s, body i s h = .ok (s + w i)) :
    ∃ r, t.eval body 0 (fun a b => a + b) h = .ok r ∧
      Close u (m + t.depth) (val r) (t.visits.map e).sum (t.visits.map a).sum := by
  induction t with
  | chunk l =>
    refine ⟨l.foldl (fun s i => s + w i) 0, Rd.foldlM_ok (fun s i => s + w i) hb, ?_⟩
    have h0 : Close u m (val (0 : F)) (0 : K) 0 := by
      rw [R.zero]
      simpa using Close.refl (v := (0 : K)) m R.nonneg
    simpa [RedTree.visits, RedTree.depth] using R.close_foldl h0 hc
  | join s t ihs iht =>
    obtain ⟨r1, h1, c1⟩ := ihs (fun i hi => hc i (by simp [RedTree.visits, hi]))
      (fun i hi => hb i (by simp [RedTree.visits, hi]))
    obtain ⟨r2, h2, c2⟩ := iht (fun i hi => hc i (by simp [RedTree.visits, hi]))
      (fun i hi => hb i (by simp [RedTree.visits, hi]))
    refine ⟨r1 + r2, ?_, ?_⟩
    · unfold RedTree.eval
      rw [Rd.bind_ok h1, Rd.bind_ok h2]; rfl
    · have c1' := c1.mono R.nonneg (show m + s.depth ≤ m + max s.depth t.depth by omega)
      have c2' := c2.mono R.nonneg (show m + t.depth ≤ m + max s.depth t.depth by omega)
      have := R.close_add c1' c2'
      simpa [RedTree.visits, RedTree.depth, add_assoc] using this

end rounding

end StdBLAS

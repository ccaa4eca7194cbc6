import Verif.Lemmas.FloatReductions
import Verif.Lemmas.Ieee
import Verif.Lemmas.KokkosReductions
import Verif.Lemmas.KokkosProducts
import Verif.Model.KokkosFloat
import Verif.Spec.KokkosLargest

/-! # Lemmas about the reductions of the Kokkos backend for every `Scalar` type -/

namespace StdBLAS
variable {α β σ : Type} {h : Heap α}

/-! ## With real numbers these are the functions of `Model/Kokkos` -/

theorem kkAbsSumOf_real [AbsOps α] (x : KVec) (init : ℝ) :
    (kkAbsSumOf x init : Sched α ℝ) = kkAbsSum x init := rfl

theorem kkNorm2Of_real [AbsOps α] (x : KVec) (init : ℝ) :
    (kkNorm2Of x init : Sched α ℝ) = kkNorm2 x init := rfl

theorem stdMax_eq_max : (stdMax : ℝ → ℝ → ℝ) = max := by
  funext a b
  unfold stdMax
  by_cases hab : a < b
  · rw [if_pos (by simpa [FloatOps.lt] using hab), max_eq_right hab.le]
  · rw [if_neg (by simpa [FloatOps.lt] using hab), max_eq_left (not_lt.1 hab)]

theorem kkInfNormOf_real [AbsOps α] (low : ℝ) (A : KMat) (init : ℝ) :
    (kkInfNormOf low A init : Sched α ℝ) = kkInfNorm low A init := by
  unfold kkInfNormOf kkInfNorm
  rw [stdMax_eq_max]
  rfl

theorem kkOneNormOf_real [AbsOps α] (low : ℝ) (A : KMat) (init : ℝ) :
    (kkOneNormOf low A init : Sched α ℝ) = kkOneNorm low A init := by
  unfold kkOneNormOf kkOneNorm
  rw [stdMax_eq_max]
  rfl

theorem Rd.bind_ok_iff {p : Rd α β} {f : β → Rd α σ} {r : σ} :
    (p >>= f) h = .ok r ↔ ∃ b, p h = .ok b ∧ f b h = .ok r := by
  constructor
  · intro e
    change Except.bind (p h) (fun b => f b h) = _ at e
    match hp : p h with
    | .error e' => rw [hp] at e; exact absurd e (by simp [Except.bind])
    | .ok b => rw [hp] at e; exact ⟨b, rfl, e⟩
  · rintro ⟨b, hb, e⟩
    rw [Rd.bind_ok hb]; exact e

theorem Rd.foldlM_mono {ι : Type} {l : List ι} {body body' : σ → ι → Rd α σ} {s r : σ}
    (hb : ∀ i s r, body s i h = .ok r → body' s i h = .ok r)
    (e : (l.foldlM body s : Rd α σ) h = .ok r) : (l.foldlM body' s : Rd α σ) h = .ok r := by
  induction l generalizing s with
  | nil => exact e
  | cons i l ih =>
    rw [List.foldlM_cons] at e ⊢
    obtain ⟨b, h1, h2⟩ := Rd.bind_ok_iff.1 e
    rw [Rd.bind_ok (hb i s b h1)]
    exact ih h2

theorem RedTree.eval_mono {body body' : Nat → σ → Rd α σ} {e : σ} {join : σ → σ → σ} (t : RedTree)
    {r : σ} (hb : ∀ i s r, body i s h = .ok r → body' i s h = .ok r)
    (ht : t.eval body e join h = .ok r) : t.eval body' e join h = .ok r := by
  induction t generalizing r with
  | chunk l => exact Rd.foldlM_mono (fun i s r => hb i s r) ht
  | join s t ihs iht =>
    unfold RedTree.eval at ht ⊢
    obtain ⟨a, h1, h2⟩ := Rd.bind_ok_iff.1 ht
    obtain ⟨b, h3, h4⟩ := Rd.bind_ok_iff.1 h2
    rw [Rd.bind_ok (ihs h1), Rd.bind_ok (iht h3)]
    exact h4

theorem parReduce_mono {n : Nat} {body body' : Nat → σ → Rd α σ} {e : σ} {join : σ → σ → σ} {r : σ}
    {h' : Heap α} (hb : ∀ i s r, body i s h = .ok r → body' i s h = .ok r)
    (H : parReduce n body e join h (.ok (r, h'))) : parReduce n body' e join h (.ok (r, h')) := by
  obtain ⟨t, ht, E⟩ := H
  refine ⟨t, ht, ?_⟩
  unfold Rd.prog at E ⊢
  match he : t.eval body e join h with
  | .error e' => rw [he] at E; exact absurd E (by simp [Except.map])
  | .ok r' =>
    rw [he] at E
    rw [t.eval_mono hb he]
    exact E

theorem sched_bind_ok {p : Sched α β} {f : β → Sched α σ} {r : σ} {h' : Heap α} :
    (p >>= f) h (.ok (r, h')) ↔ ∃ b g, p h (.ok (b, g)) ∧ f b g (.ok (r, h')) := by
  constructor
  · rintro (⟨e, -, he⟩ | H)
    · exact absurd he (by simp)
    · exact H
  · exact Or.inr

theorem parReduce_same {n : Nat} {body : Nat → σ → Rd α σ} {e : σ} {join : σ → σ → σ} {r : σ}
    {h' : Heap α} (H : parReduce n body e join h (.ok (r, h'))) : h' = h := by
  obtain ⟨t, -, E⟩ := H
  unfold Rd.prog at E
  match he : t.eval body e join h with
  | .error e' => rw [he] at E; exact absurd E (by simp [Except.map])
  | .ok r' =>
    rw [he] at E
    simp only [Except.map, Except.ok.injEq, Prod.mk.injEq] at E
    exact E.2

/-- The model for real numbers stops where the code divides by zero.  Where it does not, both models
have the same outcomes. -/
theorem kkFrobNormOf_real [AbsOps α] (low : ℝ) (A : KMat) (init r : ℝ) (h' : Heap α)
    (H : kkFrobNorm low A init h (.ok (r, h'))) : kkFrobNormOf low A init h (.ok (r, h')) := by
  unfold kkFrobNorm at H
  unfold kkFrobNormOf
  rw [stdMax_eq_max]
  split_ifs at H ⊢
  · exact H
  · exact H
  · rw [sched_bind_ok] at H ⊢
    obtain ⟨m, g, h1, H⟩ := H
    obtain rfl := parReduce_same h1
    refine ⟨m, g, h1, ?_⟩
    rw [sched_bind_ok] at H ⊢
    obtain ⟨q, g', h2, H⟩ := H
    refine ⟨q, g', parReduce_mono ?_ h2, H⟩
    intro i s r e
    obtain ⟨a, e1, e⟩ := Rd.bind_ok_iff.1 e
    obtain ⟨d, e2, e⟩ := Rd.bind_ok_iff.1 e
    rw [Rd.bind_ok e1]
    by_cases hm : m = 0
    · rw [divLook_error hm] at e2; exact absurd e2 (by simp)
    · rw [divLook_ok hm] at e2
      cases e2
      exact e

/-- As `kkFrobNormOf_real`. -/
theorem kkSumOfSquaresOf_real [AbsOps α] (low : ℝ) (x : KVec) (init r : SumOfSquares) (h' : Heap α)
    (H : kkSumOfSquares low x init h (.ok (r, h'))) :
    kkSumOfSquaresOf low x (⟨init.scalingFactor, init.scaledSumOfSquares⟩ : SumOfSquaresOf ℝ) h
      (.ok (⟨r.scalingFactor, r.scaledSumOfSquares⟩, h')) := by
  unfold kkSumOfSquares at H
  unfold kkSumOfSquaresOf
  rw [stdMax_eq_max]
  rw [sched_bind_ok] at H ⊢
  obtain ⟨m, g, h1, H⟩ := H
  obtain rfl := parReduce_same h1
  refine ⟨m, g, h1, ?_⟩
  rw [sched_bind_ok] at H ⊢
  obtain ⟨q, g', h2, H⟩ := H
  obtain rfl := parReduce_same h2
  refine ⟨q, g', parReduce_mono ?_ h2, ?_⟩
  · intro i s r e
    obtain ⟨a, e1, e⟩ := Rd.bind_ok_iff.1 e
    obtain ⟨d, e2, e⟩ := Rd.bind_ok_iff.1 e
    rw [Rd.bind_ok e1]
    by_cases hm : max m init.scalingFactor = 0
    · rw [divLook_error hm] at e2; exact absurd e2 (by simp)
    · rw [divLook_ok hm] at e2
      cases e2
      exact e
  · rw [sched_bind_ok] at H
    obtain ⟨o, g'', h3, H⟩ := H
    have h3 := h3.symm
    unfold divChecked at h3
    split_ifs at h3 with hm
    · exact absurd h3 (by simp [Prog.fail])
    · cases h3
      have H := H.symm
      cases H
      rfl

/-! ## Maxima of floating-point numbers -/

namespace FP
variable {F : Format}

theorem toE_inj {a b : FP F} (ha : a ≠ nan) (hb : b ≠ nan) (e : toE a = toE b) : a = b := by
  cases a with
  | fin x =>
    cases b with
    | fin y => rw [EReal.coe_injective e]
    | inf t => cases t <;> simp [toE] at e
    | nan => exact absurd rfl hb
  | inf s =>
    cases b with
    | fin y => cases s <;> simp [toE] at e
    | inf t => cases s <;> cases t <;> simp_all [toE]
    | nan => exact absurd rfl hb
  | nan => exact absurd rfl ha

theorem LargestOf.unique {low r r' : FP F} {n : ℕ} {v : ℕ → FP F} (hr : LargestOf low n v r)
    (hr' : LargestOf low n v r') : r = r' := by
  have key : ∀ {r r' : FP F}, LargestOf low n v r → LargestOf low n v r' → toE r ≤ toE r' := by
    intro r r' hr hr'
    rw [← lt_false_iff hr'.number hr.number]
    rcases hr.mem with rfl | ⟨i, hi, rfl⟩
    · exact hr'.low
    · exact hr'.le i hi
  exact toE_inj hr.number hr'.number (le_antisymm (key hr hr') (key hr' hr))

theorem stdMax_number {a b : FP F} (ha : a ≠ nan) : stdMax a b ≠ nan ∧
    (stdMax a b = a ∨ stdMax a b = b) ∧ toE a ≤ toE (stdMax a b) ∧
      (b ≠ nan → toE b ≤ toE (stdMax a b)) := by
  unfold stdMax
  by_cases hb : b = nan
  · subst hb
    rw [lt_def, lt_nan, if_neg (by simp)]
    exact ⟨ha, .inl rfl, le_rfl, fun h => absurd rfl h⟩
  · rw [lt_def]
    split_ifs with hl
    · exact ⟨hb, .inr rfl, ((lt_iff ha hb).1 hl).le, fun _ => le_rfl⟩
    · exact ⟨ha, .inl rfl, le_rfl, fun _ => (lt_false_iff ha hb).1 (by simpa using hl)⟩

/-- The invariant of a maximum over a list of indices. -/
structure MaxOn (low : FP F) (l : List ℕ) (v : ℕ → FP F) (r : FP F) : Prop where
  number : r ≠ nan
  mem : r = low ∨ ∃ i ∈ l, r = v i
  low : toE low ≤ toE r
  le : ∀ i ∈ l, v i ≠ nan → toE (v i) ≤ toE r

theorem MaxOn.foldl {low : FP F} (hlow : low ≠ nan) {v : ℕ → FP F} (l : List ℕ) :
    MaxOn low l v (l.foldl (fun s i => stdMax s (v i)) low) := by
  induction l using List.reverseRecOn with
  | nil => exact ⟨hlow, .inl rfl, le_rfl, fun i hi => absurd hi (by simp)⟩
  | append_singleton l a ih =>
    rw [List.foldl_append, List.foldl_cons, List.foldl_nil]
    obtain ⟨h1, h2, h3, h4⟩ := stdMax_number (b := v a) ih.number
    refine ⟨h1, ?_, ih.low.trans h3, fun i hi hn => ?_⟩
    · rcases h2 with e | e
      · rw [e]
        exact ih.mem.imp id fun ⟨i, hi, e⟩ => ⟨i, by simp [hi], e⟩
      · exact .inr ⟨a, by simp, e⟩
    · rcases List.mem_append.1 hi with hi | hi
      · exact (ih.le i hi hn).trans h3
      · rw [List.mem_singleton.1 hi] at hn ⊢
        exact h4 hn

theorem MaxOn.tree {low : FP F} (hlow : low ≠ nan) {body : ℕ → FP F → Rd α (FP F)} {v : ℕ → FP F}
    (t : RedTree) (hb : ∀ i ∈ t.visits, ∀ s, body i s h = .ok (stdMax s (v i))) :
    ∃ r, t.eval body low stdMax h = .ok r ∧ MaxOn low t.visits v r := by
  induction t with
  | chunk l => exact ⟨_, Rd.foldlM_ok (fun s i => stdMax s (v i)) hb, MaxOn.foldl hlow l⟩
  | join s t ihs iht =>
    have hs : ∀ i, i ∈ s.visits → i ∈ (RedTree.join s t).visits := fun i hi => by
      simp [RedTree.visits, hi]
    have ht : ∀ i, i ∈ t.visits → i ∈ (RedTree.join s t).visits := fun i hi => by
      simp [RedTree.visits, hi]
    obtain ⟨r1, h1, m1⟩ := ihs fun i hi => hb i (hs i hi)
    obtain ⟨r2, h2, m2⟩ := iht fun i hi => hb i (ht i hi)
    refine ⟨stdMax r1 r2, ?_, ?_⟩
    · unfold RedTree.eval
      rw [Rd.bind_ok h1, Rd.bind_ok h2]; rfl
    obtain ⟨k1, k2, k3, k4⟩ := stdMax_number (b := r2) m1.number
    refine ⟨k1, ?_, m1.low.trans k3, fun i hi hn => ?_⟩
    · rcases k2 with e | e
      · rw [e]; exact m1.mem.imp id fun ⟨i, hi, e⟩ => ⟨i, hs i hi, e⟩
      · rw [e]; exact m2.mem.imp id fun ⟨i, hi, e⟩ => ⟨i, ht i hi, e⟩
    · rcases List.mem_append.1 hi with hi | hi
      · exact (m1.le i hi hn).trans k3
      · exact (m2.le i hi hn).trans (k4 m2.number)

/-- A parallel maximum: the same outcome under every schedule. -/
theorem surely_max {n : ℕ} {low : FP F} (hlow : low ≠ nan) {body : ℕ → FP F → Rd α (FP F)}
    (v : ℕ → FP F) (hb : ∀ i, i < n → ∀ s, body i s h = .ok (stdMax s (v i)))
    {Q : FP F → Heap α → Prop} (q : ∀ r, LargestOf low n v r → Q r h) :
    Surely (parReduce n body low stdMax) h Q := by
  refine ⟨⟨_, .chunk (List.range n), List.Perm.refl _, rfl⟩, ?_⟩
  rintro _ ⟨t, ht, rfl⟩
  have hm : ∀ k, k ∈ t.visits ↔ k < n := fun k => by rw [ht.mem_iff, List.mem_range]
  obtain ⟨r, h1, m⟩ := MaxOn.tree hlow t fun i hi => hb i ((hm i).1 hi)
  refine ⟨r, h, ?_, q r ⟨m.number, ?_, ?_, ?_⟩⟩
  · unfold Rd.prog
    rw [h1]; rfl
  · exact m.mem.imp id fun ⟨i, hi, e⟩ => ⟨i, (hm i).1 hi, e⟩
  · exact (lt_false_iff m.number hlow).2 m.low
  · intro i hi
    by_cases hn : v i = nan
    · rw [hn, lt_nan]
    · exact (lt_false_iff m.number hn).2 (m.le i ((hm i).2 hi) hn)

theorem exists_largest {low : FP F} (hlow : low ≠ nan) (n : ℕ) (v : ℕ → FP F) :
    ∃ r, LargestOf low n v r := by
  have m := MaxOn.foldl hlow (v := v) (List.range n)
  refine ⟨_, m.number, m.mem.imp id fun ⟨i, hi, e⟩ => ⟨i, List.mem_range.1 hi, e⟩,
    (lt_false_iff m.number hlow).2 m.low, fun i hi => ?_⟩
  by_cases hn : v i = nan
  · rw [hn, lt_nan]
  · exact (lt_false_iff m.number hn).2 (m.le i (List.mem_range.2 hi) hn)

end FP
end StdBLAS

import Verif.Lemmas.Sizes
import Verif.Props.Calls

/-!
# Calls with matching sizes end normally (C80)

Whatever the values of the elements and however the arguments overlap.  All theorems are about every
native algorithm (`Call`, `Model/Calls.lean`).  Which sizes match is `Spec/Sizes.lean`.
-/

namespace StdBLAS
open Witness

variable {α S : Type} [Add α] [Sub α] [Mul α] [Div α] [Zero α] [ConjOps α]
  [Zero S] [One S] [Add S] [Mul S] [Div S] [FloatOps S] [MagOps α S]

/-- **C80** A call whose arguments have matching sizes and lie in memory that can be accessed ends
normally: no access outside the arguments, no other undefined behaviour, no endless loop.  Nothing is assumed
about the values, and the arguments may overlap. -/
theorem C80_ends (c : Call α S) (h : Heap α) (hc : c.Conformant) (ha : c.Accessible h) :
    ∃ g, c.prog h = .ok ((), g) ∧ ∀ a, (g a).isSome = (h a).isSome := by
  rw [← c.steps_run]
  obtain ⟨b, g, e⟩ := (c.inside hc).ends c.bounded (h := h) ha (fun a q => ha a (Or.inr q))
  exact ⟨g, e, fun a => (Task.reaches_of_ok e).same_cells a⟩

/-- The product of a matrix with itself, stored in the same matrix: the result is not the product, but the call
is safe. -/
example : ∃ g, (Call.gemm (A.view : MatV ℝ) A.view A : Call ℝ ℝ).prog (heap ℝ) = .ok ((), g) := by
  obtain ⟨g, e, -⟩ := C80_ends (Call.gemm (A.view : MatV ℝ) A.view A : Call ℝ ℝ) (heap ℝ)
    ⟨rfl, rfl, rfl⟩ (by
      have key : ∀ a, A.Cell a → ((heap ℝ) a).isSome := by
        rintro a ⟨i, j, hi, hj, -, e⟩
        simp only [A] at *
        rw [heap_lt (by omega)]; rfl
      rintro a ((q | q) | q) <;> exact key a q)
  exact ⟨g, e⟩

/-- **C80** So does every sequence of such calls, however their arguments overlap. -/
theorem C80_sequence (cs : List (Call α S)) (h : Heap α) (hc : ∀ c ∈ cs, c.Conformant)
    (ha : ∀ c ∈ cs, c.Accessible h) :
    ∃ g, forEach cs Call.prog h = .ok ((), g) ∧ ∀ a, (g a).isSome = (h a).isSome := by
  induction cs generalizing h with
  | nil => exact ⟨h, rfl, fun _ => rfl⟩
  | cons c cs ih =>
    obtain ⟨g, e, s⟩ := C80_ends c h (hc c (by simp)) (ha c (by simp))
    obtain ⟨g', e', s'⟩ := ih g (fun d hd => hc d (List.mem_cons_of_mem _ hd)) fun d hd a q => by
      rw [s a]; exact ha d (List.mem_cons_of_mem _ hd) a q
    refine ⟨g', ?_, fun a => (s' a).trans (s a)⟩
    rw [forEach_cons]
    change Prog.seq _ _ h = _
    unfold Prog.seq
    rw [e]
    exact e'

example (alpha : ℝ) : ∃ g, forEach [(Call.scale1 alpha x : Call ℝ ℝ), .gemv A.view x.view y,
    .dot y.view y.view 0 id 100, .swap1 x x] Call.prog (heap ℝ) = .ok ((), g) := by
  obtain ⟨g, e, -⟩ := C80_sequence [(Call.scale1 alpha x : Call ℝ ℝ), .gemv A.view x.view y,
    .dot y.view y.view 0 id 100, .swap1 x x] (heap ℝ) (by
      intro c hc
      simp only [List.mem_cons, List.not_mem_nil, or_false] at hc
      rcases hc with rfl | rfl | rfl | rfl
      · trivial
      · exact ⟨rfl, rfl⟩
      · rfl
      · rfl) (by
      have kx : ∀ a, x.Cell a → ((heap ℝ) a).isSome := by
        rintro a ⟨i, hi, e⟩; simp only [x] at *; rw [heap_lt (by omega)]; rfl
      have ky : ∀ a, y.Cell a → ((heap ℝ) a).isSome := by
        rintro a ⟨i, hi, e⟩; simp only [y] at *; rw [heap_lt (by omega)]; rfl
      have kA : ∀ a, A.Cell a → ((heap ℝ) a).isSome := by
        rintro a ⟨i, j, hi, hj, -, e⟩; simp only [A] at *; rw [heap_lt (by omega)]; rfl
      intro c hc
      simp only [List.mem_cons, List.not_mem_nil, or_false] at hc
      rcases hc with rfl | rfl | rfl | rfl
      · rintro a (q | q)
        · exact q.elim
        · exact kx a q
      · rintro a ((q | q) | q)
        · exact kA a q
        · exact kx a q
        · exact ky a q
      · rintro a ((q | q) | q)
        · exact ky a q
        · exact ky a q
        · have q' : a = 100 := q
          rw [q', heap_lt (by omega)]; rfl
      · rintro a (q | q | q)
        · exact q.elim
        · exact kx a q
        · exact kx a q)
  exact ⟨g, e⟩

/-- **C80** `n` threads make such calls at the same time, each its own sequence.  If no thread's output overlaps
another thread's inputs or outputs, then in every interleaving all threads end normally, without a data race. -/
theorem C80_threads (n : Nat) (ls : Nat → List (Call α S)) (h : Heap α)
    (hc : ∀ i, i < n → ∀ c ∈ ls i, c.Conformant) (ha : ∀ i, i < n → ∀ c ∈ ls i, c.Accessible h)
    (apart : ∀ i j, i < n → j < n → i ≠ j → ∀ c ∈ ls i, ∀ d ∈ ls j, ∀ a, c.Output a →
      ¬ d.Input a ∧ ¬ d.Output a) :
    Surely (concurrently n fun i => Task.forEach (ls i) Call.steps) h fun _ h' =>
      ∀ a, (∀ i, i < n → ∀ c ∈ ls i, ¬ c.Output a) → h' a = h a := by
  have := C60_each_thread n ls h apart fun i hi => by
    obtain ⟨g, e, -⟩ := C80_sequence (ls i) h (hc i hi) (ha i hi)
    exact ⟨g, e⟩
  refine this.mono fun _ h' q a hq => q.2 a ?_
  rintro ⟨i, hi, c, hc', o⟩
  exact hq i hi c hc' o

example : Surely (concurrently 2 fun i => Task.forEach (sharedCalls i) Call.steps) (heap ℝ) fun _ h' =>
    ∀ a, (∀ i, i < 2 → ∀ c ∈ sharedCalls i, ¬ c.Output a) → h' a = heap ℝ a := by
  have kx : ∀ a, x.Cell a → ((heap ℝ) a).isSome := by
    rintro a ⟨i, hi, e⟩; simp only [x] at *; rw [heap_lt (by omega)]; rfl
  have ky : ∀ a, y.Cell a → ((heap ℝ) a).isSome := by
    rintro a ⟨i, hi, e⟩; simp only [y] at *; rw [heap_lt (by omega)]; rfl
  have kA : ∀ a, A.Cell a → ((heap ℝ) a).isSome := by
    rintro a ⟨i, j, hi, hj, -, e⟩; simp only [A] at *; rw [heap_lt (by omega)]; rfl
  refine C80_threads 2 sharedCalls (heap ℝ) (fun i hi c hc => ?_) (fun i hi c hc => ?_) sharedCalls_apart
  · rcases i with _ | i
    · obtain rfl := List.mem_singleton.1 hc
      exact ⟨rfl, rfl⟩
    · obtain rfl := List.mem_singleton.1 hc
      rfl
  · rcases i with _ | i
    · obtain rfl := List.mem_singleton.1 hc
      rintro a ((q | q) | q)
      exacts [kA a q, kx a q, ky a q]
    · obtain rfl := List.mem_singleton.1 hc
      rintro a ((q | q) | q)
      · exact kx a q
      · exact kx a q
      · have : a = 100 := q
        rw [this, heap_lt (by decide)]; rfl

/-- **C80** Outputs that are overwritten may be uninitialised: a call with matching sizes whose inputs (and, for
updates, outputs) hold values, and whose output can be accessed, ends normally in a memory in which
reading an indeterminate value is undefined behaviour, and leaves no element of the output uninitialised. -/
theorem C80_uninitialised_output [Inhabited α] (c : Call α S) (m : Mem α) (hc : c.Conformant) (hf : c.Fits)
    (init : ∀ a, c.Needs a → ∃ v, m a = .value v) (out : ∀ a, c.Output a → m a ≠ .absent) :
    ∃ m', c.steps.runMem m = .ok ((), m') ∧ (∀ a, c.Output a → ∃ v, m' a = .value v) ∧
      ∀ a, ¬ c.Output a → m' a = m a := by
  classical
  let h : Heap α := fun a => match m a with
    | .absent => none
    | .indeterminate => some default
    | .value v => some v
  have fill : m.FilledBy h := by
    intro a
    cases q : m a with
    | absent => simp only [h, q]
    | indeterminate => exact ⟨default, by simp only [h, q]⟩
    | value v => simp only [h, q]
  have acc : c.Accessible h := by
    rintro a (q | q)
    · obtain ⟨v, e⟩ := init a (Or.inl q)
      simp only [h, e]; rfl
    · have := out a q
      cases e : m a with
      | absent => exact absurd e this
      | indeterminate => simp only [h, e]; rfl
      | value v => simp only [h, e]; rfl
  obtain ⟨g, e, same⟩ := C80_ends c h hc acc
  obtain ⟨m', h1, h2, h3, h4⟩ := C59_uninitialised_output c m h g hf fill
    (fun a q => by obtain ⟨v, e⟩ := init a q; rw [e]; simp) e
  refine ⟨m', h1, fun a q => ?_, h4⟩
  cases e' : m' a with
  | absent =>
    have := h2.absent e'
    have s := same a
    rw [this, acc a (Or.inr q)] at s
    cases s
  | indeterminate => exact absurd e' (h3 a q)
  | value v => exact ⟨v, rfl⟩

/-- `y` is uninitialised here. -/
example : ∃ m', (Call.gemv (A.view : MatV ℝ) x.view y : Call ℝ ℝ).steps.runMem partMem
    = .ok ((), m') := by
  have key : ∀ a, (a < 3 ∨ 30 ≤ a ∧ a < 39) → ∃ v, partMem a = .value v := fun a q => by
    unfold partMem; rw [if_pos q]; exact ⟨_, rfl⟩
  obtain ⟨m', e, -⟩ := C80_uninitialised_output (Call.gemv (A.view : MatV ℝ) x.view y : Call ℝ ℝ) partMem
    ⟨rfl, rfl⟩ rfl (by
      rintro a ((⟨i, j, hi, hj, -, e⟩ | ⟨i, hi, e⟩) | ⟨q, -⟩)
      · simp only [A, Mat.view] at *
        exact key a (by omega)
      · simp only [x, Vec.view] at *
        exact key a (by omega)
      · exact q.elim) (by
      rintro a ⟨i, hi, e⟩
      simp only [y] at *
      unfold partMem
      rw [if_neg (by omega), if_pos (by omega)]
      simp)
  exact ⟨m', e⟩

/-! ## The sizes do have to match

The native algorithms do not check sizes at run time: a vector that is too short is read beyond its end. -/

omit [Sub α] [Div α] [Zero α] [ConjOps α] in
/-- **C80** `dot(v1, v2, init)` with a second vector that is shorter than the first never ends normally. -/
theorem C80_dot_too_short (v1 v2 : VecV α) (init : α) (h : Heap α) (short : v2.ext < v1.ext) :
    ∀ r, dot v1 v2 init h ≠ .ok r := by
  rintro ⟨b, g⟩ e
  exact not_ends_foldEach (i := v2.ext) (List.mem_range'_1.2 ⟨Nat.zero_le _, by omega⟩) (fun s h' => by
    intro q
    obtain ⟨_, _, -, q⟩ := ends_bind.1 q
    obtain ⟨_, _, q, -⟩ := ends_bind.1 q
    unfold VecV.get at q
    rw [if_neg (lt_irrefl _)] at q
    cases q) ⟨b, g, e, trivial⟩

example : ∀ r, dot (x.view : VecV ℝ) (⟨2, x.addr⟩ : Vec).view 0 (heap ℝ) ≠ .ok r :=
  C80_dot_too_short _ _ _ _ (by decide)

omit [Add α] [Sub α] [Mul α] [Div α] [Zero α] [ConjOps α] in
/-- **C80** `copy(x, y)` into a longer vector. -/
theorem C80_copy_too_short (x : VecV α) (y : Vec) (h : Heap α) (short : x.ext < y.ext) :
    ∀ r, copy1 x y h ≠ .ok r := by
  rintro ⟨b, g⟩ e
  exact not_ends_forEach (i := x.ext) (List.mem_range'_1.2 ⟨Nat.zero_le _, by omega⟩) (fun h' => by
    intro q
    obtain ⟨_, _, q, -⟩ := ends_bind.1 q
    unfold VecV.get at q
    rw [if_neg (lt_irrefl _)] at q
    cases q) ⟨b, g, e, trivial⟩

example : ∀ r, copy1 ((⟨2, x.addr⟩ : Vec).view : VecV ℝ) y (heap ℝ) ≠ .ok r :=
  C80_copy_too_short _ _ _ (by decide)

omit [Sub α] [Div α] [ConjOps α] in
/-- **C80** `matrix_vector_product(A, x, y)` with a vector that has fewer elements than `A` has columns. -/
theorem C80_gemv_too_short (A : MatV α) (x : VecV α) (y : Vec) (h : Heap α) (rows : 0 < A.rows)
    (short : x.ext < A.cols) : ∀ r, gemv A x y h ≠ .ok r := by
  rintro ⟨b, g⟩ e
  refine not_ends_forEach (i := 0) (List.mem_range'_1.2 ⟨le_rfl, by omega⟩) (fun h' => ?_)
    ⟨b, g, e, trivial⟩
  intro q
  obtain ⟨_, _, -, q⟩ := ends_bind.1 q
  refine not_ends_forEach (i := x.ext) (List.mem_range'_1.2 ⟨Nat.zero_le _, by omega⟩) (fun h'' => ?_) q
  intro q
  obtain ⟨_, _, -, q⟩ := ends_bind.1 q
  obtain ⟨_, _, q, -⟩ := ends_bind.1 q
  unfold VecV.get at q
  rw [if_neg (lt_irrefl _)] at q
  cases q

example : ∀ r, gemv (A.view : MatV ℝ) (⟨2, x.addr⟩ : Vec).view y (heap ℝ) ≠ .ok r :=
  C80_gemv_too_short _ _ _ _ (by decide) (by decide)

end StdBLAS

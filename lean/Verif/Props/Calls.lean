import Verif.Lemmas.Calls
import Verif.Props.Blas1Reductions
import Verif.Props.Blas2Products
import Verif.Props.Witness

/-!
# Calls that are cut short (C58), uninitialised outputs (C59), calls in several threads (C60)

All theorems are about every native algorithm: `Call` (`Model/Calls.lean`) has one constructor for
each.  What its inputs and outputs are is `Spec/Calls.lean`.
-/

namespace StdBLAS
open Witness

variable {α S : Type} [Add α] [Sub α] [Mul α] [Div α] [Zero α] [ConjOps α]
  [Zero S] [One S] [Add S] [Mul S] [Div S] [FloatOps S] [MagOps α S]

/-! ## C58 -/

/-- **C58** The model with single memory accesses, which the theorems of this file are about, and the
model that all other properties are about are one and the same function. -/
theorem C58_same_model (c : Call α S) : c.steps.run = c.prog := c.steps_run

/-- **C58** Every call passes through the states that `Reaches` describes: a call that ends normally
reaches its end, one that ends in an error reaches the point where it fails, and continuing from any
state on the way gives the outcome of the call. -/
theorem C58_execution (c : Call α S) (h : Heap α) :
    (∀ h', c.prog h = .ok ((), h') ↔ c.steps.Reaches h (.done ()) h') ∧
    (∀ e, c.prog h = .error e → ∃ t' h', c.steps.Reaches h t' h' ∧ t'.FailsIn h' e) ∧
    (∀ t' h', c.steps.Reaches h t' h' → c.prog h = t'.run h') := by
  rw [← c.steps_run]
  refine ⟨fun h' => ⟨Task.reaches_of_ok, fun r => r.run_eq⟩, fun e he => Task.reaches_of_error he,
    fun t' h' r => r.run_eq⟩

/-- **C58** Whatever the arguments (also when sizes do not match, views overlap or memory cannot be
accessed) and wherever the call is cut short: the memory differs from the memory at the call at most
in the output; and the next access, if any, is to a cell of the inputs or of the output, and if it is
a write, of the output.  No other memory is read or written, in particular not the other triangle of a
symmetric, Hermitian or triangular matrix, nor its diagonal if that is an implicit unit diagonal. -/
theorem C58_footprint (c : Call α S) (h h' : Heap α) (t' : Task α Unit)
    (r : c.steps.Reaches h t' h') :
    OnlyChanges (fun a => c.Output a) h h' ∧
    (∀ a, t'.Accesses a → c.Input a ∨ c.Output a) ∧ (∀ a, t'.Writes a → c.Output a) := by
  obtain ⟨h1, h2⟩ := c.bounded.reaches r
  exact ⟨h2, fun a => h1.accesses fun _ => Or.inr, fun a => h1.writes⟩

/-- A Hermitian product whose vectors are too short, into a vector with a stride. -/
example (h' : Heap ℝ) (t' : Task ℝ Unit)
    (r : (Call.hemv (A.view : MatV ℝ) .lower (⟨2, x.addr⟩ : Vec).view y : Call ℝ ℝ).steps.Reaches
      (heap ℝ) t' h') : h' 11 = some ((4 : ℤ) : ℝ) := by
  rw [(C58_footprint _ _ _ _ r).1 11]
  · exact heap_lt (by omega)
  · rintro ⟨i, hi, e⟩
    simp only [y] at *
    omega

/-- **C58** A call whose output is overwritten, and does not overlap its inputs, can be repeated after
it has been cut short anywhere: the second attempt gives what the first would have given. -/
theorem C58_restart (c : Call α S) (h g h' : Heap α) (t' : Task α Unit) (hf : c.Fits)
    (over : ¬ c.InPlace) (apart : ∀ a, c.Output a → ¬ c.Input a)
    (ends : c.prog h = .ok ((), g)) (r : c.steps.Reaches h t' h') : c.prog h' = .ok ((), g) := by
  rw [← c.steps_run] at ends ⊢
  obtain ⟨-, oc⟩ := c.bounded.reaches r
  obtain ⟨g', e, p, -, o1, o2⟩ := (c.inits hf).agree c.bounded (h' := h') (fun a ha => by
    refine (oc a fun ho => ?_).symm
    exact ha.elim (apart a ho) fun q => over q.1) (fun a _ => r.same_cells a) ends
  rw [e]
  have : g' = g := by
    funext a
    by_cases q : c.Output a
    · exact p a (Or.inr q)
    · rw [o1 a q, o2 a q, oc a q]
  rw [this]

example : (Call.gemv (A.view : MatV ℝ) x.view y : Call ℝ ℝ).Fits ∧
    ¬ (Call.gemv (A.view : MatV ℝ) x.view y : Call ℝ ℝ).InPlace ∧
    (∀ a, (Call.gemv (A.view : MatV ℝ) x.view y : Call ℝ ℝ).Output a →
      ¬ (Call.gemv (A.view : MatV ℝ) x.view y : Call ℝ ℝ).Input a) ∧
    ∃ g, (Call.gemv (A.view : MatV ℝ) x.view y : Call ℝ ℝ).prog (heap ℝ) = .ok ((), g) := by
  refine ⟨rfl, id, ?_, ?_⟩
  · rintro a ⟨i, hi, e⟩ (⟨k, l, hk, hl, -, e'⟩ | ⟨k, hk, e'⟩)
    · simp only [y, A, Mat.view] at *; omega
    · simp only [y, x, Vec.view] at *; omega
  · obtain ⟨_, g, e, -⟩ := C16_gemv (A.view : MatV ℝ) x.view y (heap ℝ) _ _ (mholdsV bA) (holdsV bx)
      (alloc by_) rfl le_rfl (by view_facts) (by view_facts) (by view_facts)
    exact ⟨g, e⟩

/-! ## C59 -/

/-- **C59** The result of a call depends on nothing but the contents of the arguments it is documented
to depend on: its inputs (of a symmetric, Hermitian or triangular matrix the named triangle only) and,
for an update or an algorithm that works in place, the old output.  In two memories that agree there,
and in which the same cells of the output can be accessed, the call has the same outcome. -/
theorem C59_depends_only_on (c : Call α S) (h h' : Heap α) (hf : c.Fits)
    (same : ∀ a, c.Needs a → h a = h' a)
    (cells : ∀ a, c.Output a → (h' a).isSome = (h a).isSome) :
    (∀ g, c.prog h = .ok ((), g) → ∃ g', c.prog h' = .ok ((), g') ∧
      (∀ a, c.Output a → g' a = g a) ∧ OnlyChanges (fun a => c.Output a) h' g') ∧
    (∀ e, c.prog h = .error e → c.prog h' = .error e) := by
  rw [← c.steps_run]
  refine ⟨fun g e => ?_, fun e he => (c.inits hf).agree_error c.bounded same cells he⟩
  obtain ⟨g', e', p, -, o, -⟩ := (c.inits hf).agree c.bounded same cells e
  exact ⟨g', e', fun a ha => p a (Or.inr ha), o⟩

/-- The upper triangle of `A` does not matter. -/
example (h' : Heap ℝ) (hh : ∀ a, a ≠ 33 → a ≠ 36 → a ≠ 37 → h' a = heap ℝ a) :
    ∃ g', symv (A.view : MatV ℝ) .lower x.view y h' = .ok ((), g') := by
  obtain ⟨_, g, e, -⟩ := C17_symv (A.view : MatV ℝ) .lower x.view y (heap ℝ) _ _ (mholdsV bA)
    (holdsV bx) (alloc by_) rfl rfl le_rfl (by view_facts)
    (fun a => by
      rintro ⟨i, j, hi, hj, -, e⟩ ⟨k, hk, e'⟩
      simp only [A, y, Mat.view] at *; omega) (by view_facts)
  obtain ⟨g', e', -⟩ := (C59_depends_only_on
    (Call.symv (A.view : MatV ℝ) .lower x.view y : Call ℝ ℝ) (heap ℝ) h' rfl (by
      rintro a ((⟨i, j, hi, hj, hr, e⟩ | ⟨i, hi, e⟩) | ⟨q, -⟩)
      · have hr' : j ≤ i := hr
        simp only [A, Mat.view] at *
        exact (hh a (by omega) (by omega) (by omega)).symm
      · simp only [x, Vec.view] at *
        exact (hh a (by omega) (by omega) (by omega)).symm
      · exact q.elim) (by
      rintro a ⟨i, hi, e⟩
      simp only [y] at *
      rw [hh a (by omega) (by omega) (by omega)])).1 g e
  exact ⟨g', e'⟩

/-- **C59** Outputs that are overwritten may be uninitialised.  `m` is a memory in which every cell
whose contents the result depends on has been initialised; `h` is `m` with arbitrary values in place
of the indeterminate ones.  If the call ends normally in `h`, then it does so in `m`, where reading an
indeterminate value is undefined behaviour; the final memory is that of the call in `h`, with all
elements of the output initialised and everything else as before. -/
theorem C59_uninitialised_output (c : Call α S) (m : Mem α) (h g : Heap α) (hf : c.Fits)
    (fill : m.FilledBy h) (init : ∀ a, c.Needs a → m a ≠ .indeterminate)
    (ends : c.prog h = .ok ((), g)) :
    ∃ m', c.steps.runMem m = .ok ((), m') ∧ m'.FilledBy g ∧
      (∀ a, c.Output a → m' a ≠ .indeterminate) ∧ (∀ a, ¬ c.Output a → m' a = m a) := by
  rw [← c.steps_run] at ends
  obtain ⟨m', h1, h2, h3, h4⟩ := (c.inits hf).runMem c.bounded fill init ends
  exact ⟨m', h1, h2, fun a ha => h3 a (Or.inr ha), h4⟩

/-- `x` and `A` are initialised, everything else is not. -/
noncomputable def partMem : Mem ℝ := fun a =>
  if a < 3 ∨ 30 ≤ a ∧ a < 39 then .value (((a : ℤ) - 7 : ℤ) : ℝ)
  else if a < 200 then .indeterminate else .absent

theorem partMem_filled : partMem.FilledBy (heap ℝ) := by
  intro a
  unfold partMem
  by_cases q : a < 3 ∨ 30 ≤ a ∧ a < 39
  · rw [if_pos q]
    exact heap_lt (by omega)
  · rw [if_neg q]
    by_cases q' : a < 200
    · rw [if_pos q']; exact ⟨_, heap_lt q'⟩
    · rw [if_neg q']; exact if_neg q'

example : ∃ m', (Call.gemv (A.view : MatV ℝ) x.view y : Call ℝ ℝ).steps.runMem partMem
    = .ok ((), m') := by
  obtain ⟨_, g, e, -⟩ := C16_gemv (A.view : MatV ℝ) x.view y (heap ℝ) _ _ (mholdsV bA) (holdsV bx)
    (alloc by_) rfl le_rfl (by view_facts) (by view_facts) (by view_facts)
  obtain ⟨m', e', -⟩ := C59_uninitialised_output
    (Call.gemv (A.view : MatV ℝ) x.view y : Call ℝ ℝ) partMem (heap ℝ) g rfl partMem_filled (by
      have key : ∀ a, (a < 3 ∨ 30 ≤ a ∧ a < 39) → partMem a ≠ .indeterminate := fun a q => by
        unfold partMem; rw [if_pos q]; simp
      rintro a ((⟨i, j, hi, hj, -, e⟩ | ⟨i, hi, e⟩) | ⟨q, -⟩)
      · simp only [A, Mat.view] at *
        exact key a (by omega)
      · simp only [x, Vec.view] at *
        exact key a (by omega)
      · exact q.elim) e
  exact ⟨m', e'⟩

/-- **C59** An update does read its output: `scale` of an uninitialised vector is undefined
behaviour. -/
theorem C59_inPlace_needs_old_output (alpha : α) (v : Vec) (m : Mem α) (h0 : 0 < v.ext)
    (hm : m (v.addr 0) = .indeterminate) :
    (Call.scale1 alpha v : Call α S).steps.runMem m = .error .ub := by
  obtain ⟨n, hn⟩ : ∃ n, v.ext = n + 1 := ⟨v.ext - 1, by omega⟩
  simp only [Call.steps, Steps.scale1, Task.forUp, Vec.rd, Vec.wr]
  rw [hn]
  simp only [Nat.sub_zero, List.range'_succ]
  change Task.runMem (.load (v.addr 0) _) m = _
  simp only [Task.runMem, hm]

/-! ## C60 -/

/-- **C60** `n` threads make calls at the same time, each thread its own sequence `ls i` of calls of
any native algorithms.  No thread's output overlaps another thread's inputs or outputs; inputs may be
shared.  Each thread's calls would end normally if it ran alone.  Then, for every interleaving of their
memory accesses, there is no data race and no other undefined behaviour, and the outcome is that of
running the threads one after the other. -/
theorem C60_threads (n : Nat) (ls : Nat → List (Call α S)) (h : Heap α)
    (apart : ∀ i j, i < n → j < n → i ≠ j → ∀ c ∈ ls i, ∀ d ∈ ls j, ∀ a, c.Output a →
      ¬ d.Input a ∧ ¬ d.Output a)
    (alone : ∀ i, i < n → ∃ g, forEach (ls i) Call.prog h = .ok ((), g)) :
    SameOutcome (forEach (List.range n) fun i => forEach (ls i) Call.prog)
      (concurrently n fun i => Task.forEach (ls i) Call.steps) h := by
  have := (concurrently_same (h := h) (ts := fun i => Task.forEach (ls i) Call.steps) _ _
    (fun i _ => Call.within_forEach (ls i)) (by
      rintro i j hi hj e a ⟨c, hc, ha⟩
      refine ⟨?_, ?_⟩
      · rintro ⟨d, hd, q | q⟩
        · exact (apart i j hi hj e c hc d hd a ha).1 q
        · exact (apart i j hi hj e c hc d hd a ha).2 q
      · rintro ⟨d, hd, q⟩
        exact (apart i j hi hj e c hc d hd a ha).2 q)
    (by simp only [Call.forEach_run]; exact alone)).1
  simp only [Call.forEach_run] at this
  exact this

/-- **C60** The same, from the point of view of one thread: what it finds in its outputs at the end is
what its calls alone would have left there, and nothing but outputs has changed. -/
theorem C60_each_thread (n : Nat) (ls : Nat → List (Call α S)) (h : Heap α)
    (apart : ∀ i j, i < n → j < n → i ≠ j → ∀ c ∈ ls i, ∀ d ∈ ls j, ∀ a, c.Output a →
      ¬ d.Input a ∧ ¬ d.Output a)
    (alone : ∀ i, i < n → ∃ g, forEach (ls i) Call.prog h = .ok ((), g)) :
    Surely (concurrently n fun i => Task.forEach (ls i) Call.steps) h fun _ h' =>
      (∀ i, i < n → ∀ g, forEach (ls i) Call.prog h = .ok ((), g) →
        ∀ c ∈ ls i, ∀ a, c.Output a → h' a = g a) ∧
      OnlyChanges (fun a => ∃ i, i < n ∧ ∃ c ∈ ls i, c.Output a) h h' := by
  have := (concurrently_same (h := h) (ts := fun i => Task.forEach (ls i) Call.steps) _ _
    (fun i _ => Call.within_forEach (ls i)) (by
      rintro i j hi hj e a ⟨c, hc, ha⟩
      refine ⟨?_, ?_⟩
      · rintro ⟨d, hd, q | q⟩
        · exact (apart i j hi hj e c hc d hd a ha).1 q
        · exact (apart i j hi hj e c hc d hd a ha).2 q
      · rintro ⟨d, hd, q⟩
        exact (apart i j hi hj e c hc d hd a ha).2 q)
    (by simp only [Call.forEach_run]; exact alone))
  simp only [Call.forEach_run] at this
  obtain ⟨⟨b, h', -, hs⟩, hr⟩ := this
  refine ⟨⟨_, (hs _).2 rfl⟩, fun r q => ?_⟩
  obtain ⟨h'', rfl, q1, q2⟩ := hr r q
  exact ⟨(), h'', rfl, fun i hi g hg c hc a ha => q1 i hi g hg a ⟨c, hc, ha⟩, q2⟩

/-- Thread 0 computes `y = A x`, thread 1 `dot(x, x)`, stored in cell 100: `x` is shared. -/
noncomputable def sharedCalls : Nat → List (Call ℝ ℝ)
  | 0 => [.gemv A.view x.view y]
  | _ => [.dot x.view x.view 0 id 100]

theorem sharedCalls_apart (i j : Nat) (hi : i < 2) (hj : j < 2) (e : i ≠ j) :
    ∀ c ∈ sharedCalls i, ∀ d ∈ sharedCalls j, ∀ a, c.Output a → ¬ d.Input a ∧ ¬ d.Output a := by
  have k1 : ∀ a, y.Cell a → 10 ≤ a ∧ a < 20 := by
    rintro a ⟨i, hi, e⟩; simp only [y] at *; omega
  have k2 : ∀ a, x.Cell a → a < 3 := by
    rintro a ⟨i, hi, e⟩; simp only [x] at *; omega
  have k3 : ∀ a, A.Cell a → a < 40 := by
    rintro a ⟨i, j, hi, hj, -, e⟩; simp only [A] at *; omega
  intro c hc d hd a ha
  rcases i with _ | _ | i
  · rcases j with _ | _ | j
    · exact absurd rfl e
    · obtain rfl := List.mem_singleton.1 hc
      obtain rfl := List.mem_singleton.1 hd
      have := k1 a ha
      refine ⟨?_, ?_⟩
      · rintro (q | q) <;> have := k2 a q <;> omega
      · intro q
        have q' : a = 100 := q
        omega
    · omega
  · rcases j with _ | _ | j
    · obtain rfl := List.mem_singleton.1 hc
      obtain rfl := List.mem_singleton.1 hd
      have ha' : a = 100 := ha
      refine ⟨?_, ?_⟩
      · rintro (q | q)
        · have := k3 a q; omega
        · have := k2 a q; omega
      · intro q
        have := k1 a q
        omega
    · exact absurd rfl e
    · omega
  · omega

theorem sharedCalls_alone (i : Nat) (hi : i < 2) :
    ∃ g, forEach (sharedCalls i) Call.prog (heap ℝ) = .ok ((), g) := by
  rcases i with _ | _ | i
  · obtain ⟨_, g, e, -⟩ := C16_gemv (A.view : MatV ℝ) x.view y (heap ℝ) _ _ (mholdsV bA)
      (holdsV bx) (alloc by_) rfl le_rfl (by view_facts) (by view_facts) (by view_facts)
    have : Ends (forEach (sharedCalls 0) Call.prog) (heap ℝ) fun _ _ => True := by
      simp only [sharedCalls, forEach_cons, forEach_nil, ends_bind, ends_pure]
      exact ⟨_, g, e, trivial⟩
    obtain ⟨_, g, e, -⟩ := this
    exact ⟨g, e⟩
  · have := C01_dot (x.view : VecV ℝ) x.view 0 (heap ℝ) _ _ (holdsV bx) (holdsV bx) le_rfl
    have : Ends (forEach (sharedCalls 1) Call.prog) (heap ℝ) fun _ _ => True := by
      simp only [sharedCalls, forEach_cons, forEach_nil, ends_bind, ends_pure, Call.prog, Prog.into,
        ends_store]
      refine this.mono fun r h' q => ?_
      rw [q.2]
      exact ⟨⟨_, heap_lt (by omega)⟩, trivial⟩
    obtain ⟨_, g, e, -⟩ := this
    exact ⟨g, e⟩
  · omega

example : SameOutcome (forEach (List.range 2) fun i => forEach (sharedCalls i) Call.prog)
    (concurrently 2 fun i => Task.forEach (sharedCalls i) Call.steps) (heap ℝ) :=
  C60_threads 2 sharedCalls (heap ℝ) sharedCalls_apart sharedCalls_alone

example : Surely (concurrently 2 fun i => Task.forEach (sharedCalls i) Call.steps) (heap ℝ) fun _ h' =>
    (∀ i, i < 2 → ∀ g, forEach (sharedCalls i) Call.prog (heap ℝ) = .ok ((), g) →
      ∀ c ∈ sharedCalls i, ∀ a, c.Output a → h' a = g a) ∧
    OnlyChanges (fun a => ∃ i, i < 2 ∧ ∃ c ∈ sharedCalls i, c.Output a) (heap ℝ) h' :=
  C60_each_thread 2 sharedCalls (heap ℝ) sharedCalls_apart sharedCalls_alone

/-- **C60** That outputs are not shared is needed: two threads that scale the same vector race. -/
theorem C60_shared_output_races (alpha beta : α) (v : Vec) (h : Heap α) (h0 : 0 < v.ext) (w : α)
    (hw : h (v.addr 0) = some w) :
    concurrently 2 (fun i => (Call.scale1 (if i = 0 then alpha else beta) v : Call α S).steps) h
      (.error .ub) := by
  obtain ⟨n, hn⟩ : ∃ n, v.ext = n + 1 := ⟨v.ext - 1, by omega⟩
  have step : ∀ c : α, ∃ k : α → Task α Unit,
      (Call.scale1 c v : Call α S).steps = .load (v.addr 0) fun u => .store (v.addr 0) (u * c) (k u) := by
    intro c
    simp only [Call.steps, Steps.scale1, Task.forUp, Vec.rd, Vec.wr]
    rw [hn]
    simp only [Nat.sub_zero, List.range'_succ]
    exact ⟨_, rfl⟩
  obtain ⟨k, hk⟩ := step alpha
  obtain ⟨k', hk'⟩ := step beta
  refine ⟨_, .single (.load (i := 0) (by omega) (a := v.addr 0) hk hw), Or.inr (Or.inr ⟨?_, rfl⟩)⟩
  refine ⟨0, 1, v.addr 0, by omega, by omega, by omega, ?_, ?_⟩
  · simp [Task.Writes]
  · change Task.Accesses (v.addr 0) (Call.scale1 beta v : Call α S).steps
    rw [hk']
    rfl

example : concurrently 2 (fun i => (Call.scale1 (if i = 0 then (2 : ℝ) else 3) x : Call ℝ ℝ).steps)
    (heap ℝ) (.error .ub) :=
  C60_shared_output_races 2 3 x (heap ℝ) (by decide) _ (heap_lt (by decide))

/-- Scaling an array that nothing has been written to. -/
example : (Call.scale1 2 x : Call ℝ ℝ).steps.runMem (fun _ => .indeterminate) = .error .ub :=
  C59_inPlace_needs_old_output 2 x _ (by decide) rfl

end StdBLAS

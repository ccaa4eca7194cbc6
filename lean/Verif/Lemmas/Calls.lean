import Verif.Lemmas.Inits

/-!
# Calls while they run

Consequences of the footprints (`Footprint.lean`, `Inits.lean`) for the states between call and
return, for memory with indeterminate values, and for threads.
-/

namespace StdBLAS
variable {α β : Type}

namespace Task
variable {I P R W : Nat → Prop} {h h' : Heap α}

/-- What is left of a task stays within the footprint, and only the written cells change. -/
theorem Within.reaches {t t' : Task α β} (hw : t.Within R W) (r : t.Reaches h t' h') :
    t'.Within R W ∧ OnlyChanges W h h' := by
  unfold Reaches at r
  generalize e : (t, h) = x at r
  generalize e' : (t', h') = x' at r
  induction r generalizing t' h' with
  | refl => subst e; cases e'; exact ⟨hw, fun _ _ => rfl⟩
  | tail r m ih =>
    subst e
    rename_i y z
    obtain ⟨s, g⟩ := y
    obtain ⟨h1, h2⟩ := ih rfl
    cases m with
    | load hv => cases e'; exact ⟨h1.2 _, h2⟩
    | store hv =>
      cases e'
      refine ⟨h1.2, fun a ha => ?_⟩
      rw [Function.update_of_ne, h2 a ha]
      rintro rfl
      exact ha h1.1

theorem Within.accesses {t : Task α β} (hw : t.Within R W) (hWR : ∀ a, W a → R a) {a : Nat}
    (ha : t.Accesses a) : R a := by
  cases t with
  | done b => exact ha.elim
  | fail e => exact ha.elim
  | load b k => cases ha; exact hw.1
  | store b v k => cases ha; exact hWR _ hw.1

theorem Within.writes {t : Task α β} (hw : t.Within R W) {a : Nat} (ha : t.Writes a) : W a := by
  cases t with
  | done b => exact ha.elim
  | fail e => exact ha.elim
  | load b k => exact ha.elim
  | store b v k => cases ha; exact hw.1

/-- A task that runs to its end reaches its end. -/
theorem reaches_of_ok {t : Task α β} {b : β} (e : t.run h = .ok (b, h')) :
    t.Reaches h (.done b) h' := by
  induction t generalizing h with
  | done c =>
    change Except.ok (c, h) = _ at e
    cases e
    exact .refl
  | fail e' => cases e
  | load a k ih =>
    change Prog.seq (Prog.load a) _ h = _ at e
    unfold Prog.seq Prog.load at e
    cases q : h a with
    | none => rw [q] at e; cases e
    | some v => rw [q] at e; exact .head (.load q) (ih v e)
  | store a v k ih =>
    change Prog.seq (Prog.store a v) _ h = _ at e
    unfold Prog.seq Prog.store at e
    cases q : h a with
    | none => rw [q] at e; cases e
    | some w => rw [q] at e; exact .head (.store q) (ih e)

/-- A task that ends in an error reaches the point where it fails. -/
theorem reaches_of_error {t : Task α β} {e : Err} (he : t.run h = .error e) :
    ∃ t' h', t.Reaches h t' h' ∧ t'.FailsIn h' e := by
  induction t generalizing h with
  | done c => cases he
  | fail e' =>
    change Except.error e' = _ at he
    cases he
    exact ⟨_, _, .refl, rfl⟩
  | load a k ih =>
    change Prog.seq (Prog.load a) _ h = _ at he
    unfold Prog.seq Prog.load at he
    cases q : h a with
    | none =>
      rw [q] at he
      cases he
      exact ⟨_, _, .refl, q, rfl⟩
    | some v =>
      rw [q] at he
      obtain ⟨t', h', r, f⟩ := ih v he
      exact ⟨t', h', .head (.load q) r, f⟩
  | store a v k ih =>
    change Prog.seq (Prog.store a v) _ h = _ at he
    unfold Prog.seq Prog.store at he
    cases q : h a with
    | none =>
      rw [q] at he
      cases he
      exact ⟨_, _, .refl, q, rfl⟩
    | some w =>
      rw [q] at he
      obtain ⟨t', h', r, f⟩ := ih he
      exact ⟨t', h', .head (.store q) r, f⟩

/-- Running what is left gives the same outcome. -/
theorem Reaches.run_eq {t t' : Task α β} (r : t.Reaches h t' h') : t.run h = t'.run h' := by
  unfold Reaches at r
  generalize e : (t, h) = x at r
  generalize e' : (t', h') = x' at r
  induction r generalizing t' h' with
  | refl => subst e; cases e'; rfl
  | tail r m ih =>
    subst e
    rename_i y z
    obtain ⟨s, g⟩ := y
    rw [ih rfl]
    cases m with
    | load hv =>
      cases e'
      change Prog.seq (Prog.load _) _ _ = _
      unfold Prog.seq Prog.load
      rw [hv]
    | store hv =>
      cases e'
      change Prog.seq (Prog.store _ _) _ _ = _
      unfold Prog.seq Prog.store
      rw [hv]

/-- The cells that can be accessed stay the same. -/
theorem Reaches.same_cells {t t' : Task α β} (r : t.Reaches h t' h') (a : Nat) :
    (h' a).isSome = (h a).isSome := by
  unfold Reaches at r
  generalize e : (t, h) = x at r
  generalize e' : (t', h') = x' at r
  induction r generalizing t' h' with
  | refl => subst e; cases e'; rfl
  | tail r m ih =>
    subst e
    rename_i y z
    obtain ⟨s, g⟩ := y
    rw [← ih rfl]
    cases m with
    | load hv => cases e'; rfl
    | store hv =>
      cases e'
      by_cases q : a = ‹Nat›
      · subst q; rw [Function.update_self, hv]; rfl
      · rw [Function.update_of_ne q]

/-- In memories that agree on what is initialised, a task that reads only that and its own writes
does the same. -/
theorem Inits.agree {t : Task α β} (ht : t.Inits I P) (hw : t.Within R W) {g : Heap α} {b : β}
    (eI : ∀ a, I a → h a = h' a) (eA : ∀ a, W a → (h' a).isSome = (h a).isSome)
    (e : t.run h = .ok (b, g)) :
    ∃ g', t.run h' = .ok (b, g') ∧ (∀ a, P a → g' a = g a) ∧
      (∀ a, h a = h' a → g' a = g a) ∧ OnlyChanges W h' g' ∧ OnlyChanges W h g := by
  induction t generalizing I h h' with
  | done c =>
    change Except.ok (c, h) = _ at e
    cases e
    exact ⟨h', rfl, fun a p => (eI a (ht a p)).symm, fun a q => q.symm, fun _ _ => rfl,
      fun _ _ => rfl⟩
  | fail e' => cases e
  | load a k ih =>
    change Prog.seq (Prog.load a) _ h = _ at e
    unfold Prog.seq Prog.load at e
    cases q : h a with
    | none => rw [q] at e; cases e
    | some v =>
      rw [q] at e
      obtain ⟨g', h1, h2⟩ := ih v (ht.2 v) (hw.2 v) eI eA e
      refine ⟨g', ?_, h2⟩
      change Prog.seq (Prog.load a) _ h' = _
      unfold Prog.seq Prog.load
      rw [← eI a ht.1, q]
      exact h1
  | store a v k ih =>
    change Prog.seq (Prog.store a v) _ h = _ at e
    unfold Prog.seq Prog.store at e
    cases q : h a with
    | none => rw [q] at e; cases e
    | some w =>
      rw [q] at e
      have q' : ∃ w', h' a = some w' := by
        have := eA a hw.1
        rw [q] at this
        exact Option.isSome_iff_exists.1 this
      obtain ⟨w', q'⟩ := q'
      have up : ∀ b, b = a ∨ h b = h' b →
          Function.update h a (some v) b = Function.update h' a (some v) b := by
        intro b hb
        by_cases c : b = a
        · rw [c, Function.update_self, Function.update_self]
        · rw [Function.update_of_ne c, Function.update_of_ne c]
          exact hb.resolve_left c
      obtain ⟨g', h1, h2, h3, h4, h5⟩ := ih ht hw.2 (h' := Function.update h' a (some v))
        (fun b hb => up b (hb.symm.imp id (eI b))) (fun b hb => by
          by_cases c : b = a
          · rw [c, Function.update_self, Function.update_self]
          · rw [Function.update_of_ne c, Function.update_of_ne c]; exact eA b hb) e
      have oc : ∀ {f f' : Heap α}, OnlyChanges W (Function.update f a (some v)) f' →
          OnlyChanges W f f' := fun o b hb => by
        rw [o b hb, Function.update_of_ne]
        rintro rfl
        exact hb hw.1
      refine ⟨g', ?_, h2, fun b hb => h3 b (up b (Or.inr hb)), oc h4, oc h5⟩
      change Prog.seq (Prog.store a v) _ h' = _
      unfold Prog.seq Prog.store
      rw [q']
      exact h1

/-- The same for a task that ends in an error. -/
theorem Inits.agree_error {t : Task α β} (ht : t.Inits I P) (hw : t.Within R W) {e : Err}
    (eI : ∀ a, I a → h a = h' a) (eA : ∀ a, W a → (h' a).isSome = (h a).isSome)
    (he : t.run h = .error e) : t.run h' = .error e := by
  induction t generalizing I h h' with
  | done c => cases he
  | fail e' => exact he
  | load a k ih =>
    change Prog.seq (Prog.load a) _ h = _ at he
    change Prog.seq (Prog.load a) _ h' = _
    unfold Prog.seq Prog.load at he ⊢
    rw [← eI a ht.1]
    cases q : h a with
    | none => rw [q] at he; exact he
    | some v => rw [q] at he; exact ih v (ht.2 v) (hw.2 v) eI eA he
  | store a v k ih =>
    change Prog.seq (Prog.store a v) _ h = _ at he
    change Prog.seq (Prog.store a v) _ h' = _
    unfold Prog.seq Prog.store at he ⊢
    have := eA a hw.1
    cases q : h a with
    | none =>
      rw [q] at he this
      rw [Option.isSome_eq_false_iff.1 this |> Option.isNone_iff_eq_none.1]
      exact he
    | some w =>
      rw [q] at he this
      obtain ⟨w', q'⟩ := Option.isSome_iff_exists.1 this
      rw [q']
      refine ih ht hw.2 (fun b hb => ?_) (fun b hb => ?_) he
      · by_cases c : b = a
        · rw [c, Function.update_self, Function.update_self]
        · rw [Function.update_of_ne c, Function.update_of_ne c]
          exact eI b (hb.resolve_right c)
      · by_cases c : b = a
        · rw [c, Function.update_self, Function.update_self]
        · rw [Function.update_of_ne c, Function.update_of_ne c]; exact eA b hb

/-- With a footprint, a task that ends normally is safe. -/
theorem Within.safe {t : Task α β} (hw : t.Within R W) {Q : β → Heap α → Prop}
    (he : Ends t.run h Q) : t.Safe R W h Q := by
  induction t generalizing h with
  | done b => exact ends_pure.1 he
  | fail e => exact (ends_fail he).elim
  | load a k ih =>
    obtain ⟨v, h2, he'⟩ := ends_load.1 (ends_bind.1 he)
    exact ⟨hw.1, v, h2, ih v (hw.2 v) he'⟩
  | store a v k ih =>
    obtain ⟨h2, he'⟩ := ends_store.1 (ends_bind.1 he)
    exact ⟨⟨hw.1, h2⟩, ih hw.2 he'⟩

end Task

/-! ## Indeterminate values -/

theorem Mem.FilledBy.value {m : Mem α} {h : Heap α} (f : m.FilledBy h) {a : Nat} {v : α}
    (e : m a = .value v) : h a = some v := by
  have := f a; rw [e] at this; exact this

theorem Mem.FilledBy.absent {m : Mem α} {h : Heap α} (f : m.FilledBy h) {a : Nat}
    (e : m a = .absent) : h a = none := by
  have := f a; rw [e] at this; exact this

theorem Mem.FilledBy.indeterminate {m : Mem α} {h : Heap α} (f : m.FilledBy h) {a : Nat}
    (e : m a = .indeterminate) : ∃ v, h a = some v := by
  have := f a; rw [e] at this; exact this

theorem Mem.FilledBy.update {m : Mem α} {h : Heap α} (f : m.FilledBy h) (a : Nat) (v : α) :
    Mem.FilledBy (Function.update m a (.value v)) (Function.update h a (some v)) := by
  intro b
  by_cases c : b = a
  · subst c; rw [Function.update_self, Function.update_self]
  · rw [Function.update_of_ne c, Function.update_of_ne c]; exact f b

theorem Task.Inits.runMem {I P R W : Nat → Prop} {t : Task α β} (ht : t.Inits I P)
    (hw : t.Within R W) {m : Mem α} {h g : Heap α} {b : β} (f : m.FilledBy h)
    (hI : ∀ a, I a → m a ≠ .indeterminate) (e : t.run h = .ok (b, g)) :
    ∃ m', t.runMem m = .ok (b, m') ∧ m'.FilledBy g ∧ (∀ a, P a → m' a ≠ .indeterminate) ∧
      ∀ a, ¬ W a → m' a = m a := by
  induction t generalizing I m h with
  | done c =>
    change Except.ok (c, h) = _ at e
    cases e
    exact ⟨m, rfl, f, fun a p => hI a (ht a p), fun _ _ => rfl⟩
  | fail e' => cases e
  | load a k ih =>
    change Prog.seq (Prog.load a) _ h = _ at e
    unfold Prog.seq Prog.load at e
    cases q : m a with
    | absent => rw [f.absent q] at e; cases e
    | indeterminate => exact absurd q (hI a ht.1)
    | value v =>
      rw [f.value q] at e
      obtain ⟨m', h1, h2⟩ := ih v (ht.2 v) (hw.2 v) f hI e
      refine ⟨m', ?_, h2⟩
      simp only [Task.runMem, q]
      exact h1
  | store a v k ih =>
    change Prog.seq (Prog.store a v) _ h = _ at e
    unfold Prog.seq Prog.store at e
    have key : m a ≠ .absent → ∃ m', k.runMem (Function.update m a (.value v)) = .ok (b, m') ∧
        m'.FilledBy g ∧ (∀ a, P a → m' a ≠ .indeterminate) ∧ ∀ a, ¬ W a → m' a = m a := by
      intro q
      have e' : k.run (Function.update h a (some v)) = .ok (b, g) := by
        cases c : m a with
        | absent => exact absurd c q
        | indeterminate =>
          obtain ⟨w, hw'⟩ := f.indeterminate c
          rw [hw'] at e
          exact e
        | value w => rw [f.value c] at e; exact e
      obtain ⟨m', h1, h2, h3, h4⟩ := ih ht hw.2 (f.update a v) (fun c hc => by
        by_cases d : c = a
        · rw [d, Function.update_self]; simp
        · rw [Function.update_of_ne d]; exact hI c (hc.resolve_right d)) e'
      refine ⟨m', h1, h2, h3, fun c hc => ?_⟩
      rw [h4 c hc, Function.update_of_ne]
      rintro rfl
      exact hc hw.1
    cases q : m a with
    | absent => rw [f.absent q] at e; cases e
    | indeterminate =>
      obtain ⟨m', h1, h2⟩ := key (by rw [q]; simp)
      refine ⟨m', ?_, h2⟩
      simp only [Task.runMem, q]
      exact h1
    | value w =>
      obtain ⟨m', h1, h2⟩ := key (by rw [q]; simp)
      refine ⟨m', ?_, h2⟩
      simp only [Task.runMem, q]
      exact h1

/-! ## Threads -/

/-- Threads that write nothing that another one accesses: whatever the schedule, the outcome is that
of running them one after the other. -/
theorem concurrently_same {n : Nat} {ts : Nat → Task α Unit} {h : Heap α} (R W : Nat → Nat → Prop)
    (within : ∀ i, i < n → (ts i).Within (R i) (W i))
    (apart : ∀ i j, i < n → j < n → i ≠ j → ∀ a, W i a → ¬ R j a ∧ ¬ W j a)
    (alone : ∀ i, i < n → ∃ g, (ts i).run h = .ok ((), g)) :
    SameOutcome (forEach (List.range n) fun i => (ts i).run) (concurrently n ts) h ∧
    ∀ r, concurrently n ts h r → ∃ h', r = .ok ((), h') ∧
      (∀ i, i < n → ∀ g, (ts i).run h = .ok ((), g) → ∀ a, W i a → h' a = g a) ∧
      OnlyChanges (fun a => ∃ i, i < n ∧ W i a) h h' := by
  let P : Nat → Heap α → Prop := fun i h' =>
    ∀ g, (ts i).run h = .ok ((), g) → ∀ a, W i a → h' a = g a
  have loc : ∀ i, i < n → ∀ g g', (∀ a, W i a → g a = g' a) → P i g → P i g' :=
    fun i _ g g' e p k hk a ha => (e a ha).symm.trans (p k hk a ha)
  have ends : ∀ i, i < n → Ends (ts i).run h (fun _ g => P i g) := by
    intro i hi
    obtain ⟨g, e⟩ := alone i hi
    refine ⟨(), g, e, fun k hk a _ => ?_⟩
    rw [e] at hk
    cases hk
    rfl
  have safe : ∀ i, i < n → (ts i).Safe (R i) (W i) h (fun _ g => P i g) :=
    fun i hi => (within i hi).safe (ends i hi)
  have sure : Surely (concurrently n ts) h (fun _ h' =>
      (∀ i, i < n → P i h') ∧ OnlyChanges (fun a => ∃ i, i < n ∧ W i a) h h') := by
    refine parFor_owned W P (fun i j hi hj e a ha => (apart i j hi hj e a ha).2) loc fun i hi => ?_
    exact (safe i hi).mono_reads fun a ha j hj e hw => (apart j i hj hi e a hw).1 ha
  have seq : Ends (forEach (List.range n) fun i => (ts i).run) h (fun _ h' =>
      (∀ i, i ∈ List.range n → P i h') ∧
        OnlyChanges (fun a => ∃ i, i ∈ List.range n ∧ W i a) h h') := by
    refine ends_forEach_inv (l := List.range n) (body := fun i => (ts i).run) (fun pre h' =>
      (∀ i, i ∈ pre → P i h') ∧ OnlyChanges (fun a => ∃ i, i ∈ pre ∧ W i a) h h') ?_ ?_
    · intro pre i post e h' inv
      have hmem : ∀ j, j ∈ pre ++ i :: post → j < n := fun j hj => by
        rw [← e] at hj; exact List.mem_range.1 hj
      have hi : i < n := hmem i (by simp)
      have hne : ∀ j, j ∈ pre → j ≠ i := by
        rintro j hj rfl
        have nd := (List.nodup_range (n := n))
        rw [e, List.nodup_append] at nd
        exact nd.2.2 j hj j (by simp) rfl
      have same : ∀ a, R i a ∨ W i a → h a = h' a := by
        intro a ha
        refine (inv.2 a ?_).symm
        rintro ⟨j, hj, hw⟩
        have := apart j i (hmem j (by simp [hj])) hi (hne j hj) a hw
        exact ha.elim this.1 this.2
      have := (((safe i hi).congr (loc := fun _ g g' e p => loc i hi g g' e p)
        (fun a ha => same a (Or.inl ha)) (fun a ha => same a (Or.inr ha))).frame).ends
      refine this.mono fun _ g q => ⟨fun j hj => ?_, fun a ha => ?_⟩
      · rcases List.mem_append.1 hj with hj | hj
        · have hjn := hmem j (by simp [hj])
          refine loc j hjn h' g (fun a ha => (q.2 a ?_).symm) (inv.1 j hj)
          exact (apart j i hjn hi (hne j hj) a ha).2
        · rw [List.mem_singleton] at hj
          subst hj
          exact q.1
      · rw [q.2 a fun hw => ha ⟨i, by simp, hw⟩]
        exact inv.2 a fun ⟨j, hj, hw⟩ => ha ⟨j, by simp [hj], hw⟩
    · exact ⟨fun i hi => (List.not_mem_nil hi).elim, fun _ _ => rfl⟩
  obtain ⟨_, h', e, p1, p2⟩ := seq
  have unique : ∀ h'', ((∀ i, i < n → P i h'') ∧
      OnlyChanges (fun a => ∃ i, i < n ∧ W i a) h h'') → h'' = h' := by
    rintro h'' ⟨q1, q2⟩
    funext a
    by_cases c : ∃ i, i < n ∧ W i a
    · obtain ⟨i, hi, hw⟩ := c
      obtain ⟨g, eg⟩ := alone i hi
      rw [q1 i hi g eg a hw, p1 i (List.mem_range.2 hi) g eg a hw]
    · rw [q2 a c, p2 a]
      rintro ⟨i, hi, hw⟩
      exact c ⟨i, List.mem_range.1 hi, hw⟩
  refine ⟨⟨(), h', e, fun r => ⟨fun hr => ?_, ?_⟩⟩, fun r hr => ?_⟩
  · obtain ⟨_, h'', rfl, q⟩ := sure.2 r hr
    rw [unique h'' q]
  · rintro rfl
    obtain ⟨r, hr⟩ := sure.1
    obtain ⟨_, h'', rfl, q⟩ := sure.2 r hr
    rw [unique h'' q] at hr
    exact hr
  · obtain ⟨_, h'', rfl, q⟩ := sure.2 r hr
    exact ⟨h'', rfl, q⟩

/-! ## The step-by-step model is the model -/

theorem Task.into_run (p : Task α β) (f : β → α) (out : Nat) :
    (p.into f out).run = p.run.into f out := by
  unfold Task.into Prog.into
  rw [Task.bind_run]
  congr 1
  funext b
  exact bind_pure_prog _

section calls
variable {S : Type} [Add α] [Sub α] [Mul α] [Div α] [Zero α] [ConjOps α]
  [Zero S] [One S] [Add S] [Mul S] [Div S] [FloatOps S] [MagOps α S]

theorem Call.steps_run (c : Call α S) : c.steps.run = c.prog := by
  cases c <;> simp only [Call.steps, Call.prog]
  all_goals first
    | (rw [Task.into_run]; simp)
    | simp

theorem Call.forEach_run (l : List (Call α S)) :
    (Task.forEach l Call.steps).run = StdBLAS.forEach l Call.prog := by
  rw [Task.forEach_run]
  congr 1
  funext c
  exact c.steps_run

theorem Call.within_forEach (l : List (Call α S)) : (Task.forEach l Call.steps).Within
    (fun a => ∃ c ∈ l, c.Input a ∨ c.Output a) (fun a => ∃ c ∈ l, c.Output a) :=
  Task.within_forEach fun c hc => c.bounded.mono (fun _ h => ⟨c, hc, h⟩) fun _ h => ⟨c, hc, h⟩

end calls

end StdBLAS

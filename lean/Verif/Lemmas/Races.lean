import Verif.Lemmas.Kokkos

/-! # Schedules that end in a data race -/

namespace StdBLAS
variable {α β γ : Type}

/-- In memory `h`, the task `t` gets to `t'` by reads alone. -/
inductive Task.Reads (h : Heap α) : Task α β → Task α β → Prop where
  | here (t : Task α β) : Task.Reads h t t
  | load {a : Nat} {k : α → Task α β} {v : α} {t : Task α β} :
      h a = some v → Task.Reads h (k v) t → Task.Reads h (.load a k) t

theorem Task.Reads.trans {h : Heap α} {t t' t'' : Task α β} (p : Task.Reads h t t')
    (q : Task.Reads h t' t'') : Task.Reads h t t'' := by
  induction p with
  | here => exact q
  | load e _ ih => exact .load e (ih q)

theorem Task.Reads.bind {h : Heap α} {t t' : Task α β} (p : Task.Reads h t t')
    (f : β → Task α γ) : Task.Reads h (t >>= f) (t' >>= f) := by
  induction p with
  | here => exact .here _
  | load e _ ih => exact .load e ih

/-- One iteration reads, the others wait. -/
theorem Task.Reads.steps {h : Heap α} {t t' : Task α Unit} (p : Task.Reads h t t') {n i : Nat}
    (hi : i < n) (ts : Nat → Task α Unit) (e : ts i = t) :
    Relation.ReflTransGen (Step n) ⟨ts, h⟩ ⟨Function.update ts i t', h⟩ := by
  induction p generalizing ts with
  | here t => rw [← e, Function.update_eq_self]
  | load hv _ ih =>
    refine .head (Step.load hi e hv) ?_
    have := ih (Function.update ts i _) (Function.update_self ..)
    rwa [Function.update_idem] at this

/-- Two iterations that by reads alone get to conflicting accesses: some schedule is a data race. -/
theorem parFor_races {n : Nat} {body : Nat → Task α Unit} {h : Heap α} {i k a : Nat}
    {t u : Task α Unit} (hi : i < n) (hk : k < n) (hne : i ≠ k) (p : Task.Reads h (body i) t)
    (q : Task.Reads h (body k) u) (hw : t.Writes a) (ha : u.Accesses a) :
    parFor n body h (.error .ub) := by
  refine ⟨⟨Function.update (Function.update body i t) k u, h⟩,
    (p.steps hi body rfl).trans (q.steps hk _ (Function.update_of_ne hne.symm ..)),
    Or.inr (Or.inr ⟨⟨i, k, a, hi, hk, hne, ?_, ?_⟩, rfl⟩)⟩
  · show (Function.update (Function.update body i t) k u i).Writes a
    rwa [Function.update_of_ne hne, Function.update_self]
  · show (Function.update (Function.update body i t) k u k).Accesses a
    rwa [Function.update_self]

theorem parFor_races_of {n : Nat} {body : Nat → Task α Unit} {h : Heap α} {i k a : Nat}
    (hi : i < n) (hk : k < n) (hne : i ≠ k) (p : ∃ t, Task.Reads h (body i) t ∧ t.Writes a)
    (q : ∃ u, Task.Reads h (body k) u ∧ u.Accesses a) : parFor n body h (.error .ub) := by
  obtain ⟨t, p, hw⟩ := p
  obtain ⟨u, q, ha⟩ := q
  exact parFor_races hi hk hne p q hw ha

theorem reads_then {h : Heap α} {t t' : Task α β} {P : Task α β → Prop} (p : Task.Reads h t t')
    (q : ∃ u, Task.Reads h t' u ∧ P u) : ∃ u, Task.Reads h t u ∧ P u := by
  obtain ⟨u, q, hu⟩ := q
  exact ⟨u, p.trans q, hu⟩

/-- A check that is met drops out. -/
theorem require_met {c : Prop} [Decidable c] (hc : c) (k : Unit → Sched α β) :
    (require c >>= k) = k () := by
  unfold require
  rw [if_pos hc]
  exact sched_pure_bind () k

/-- A call that may be undefined is not sure to end normally. -/
theorem not_surely {p : Sched α β} {h : Heap α} {Q : β → Heap α → Prop} (e : p h (.error .ub)) :
    ¬ Surely p h Q := fun q => by
  obtain ⟨b, h', e', _⟩ := q.2 _ e
  cases e'

theorem Task.reads_fold {h : Heap α} {ι σ : Type} (l : List ι) (s : σ)
    (body : σ → ι → Task α σ) (ok : ∀ s, ∀ i ∈ l, ∃ s', Task.Reads h (body s i) (.done s')) :
    ∃ s', Task.Reads h (Task.foldEach l s body) (.done s') := by
  induction l generalizing s with
  | nil => exact ⟨s, .here _⟩
  | cons i l ih =>
    obtain ⟨s', p⟩ := ok s i (List.mem_cons_self ..)
    obtain ⟨s'', q⟩ := ih s' fun s j hj => ok s j (List.mem_cons_of_mem _ hj)
    exact ⟨s'', (p.bind _).trans q⟩

theorem Task.foldEach_append {ι σ : Type} (l m : List ι) (s : σ) (body : σ → ι → Task α σ) :
    Task.foldEach (l ++ m) s body = Task.foldEach l s body >>= fun s' => Task.foldEach m s' body := by
  induction l generalizing s with
  | nil => rfl
  | cons i l ih =>
    show (body s i).bind _ = ((body s i).bind _).bind _
    have : ∀ t : Task α σ, t.bind (fun s' => Task.foldEach (l ++ m) s' body) =
        (t.bind fun s' => Task.foldEach l s' body).bind fun s' => Task.foldEach m s' body := by
      intro t
      induction t with
      | done b => exact ih b
      | fail e => rfl
      | load a k ih' => exact congrArg (Task.load a) (funext ih')
      | store a v k ih' => exact congrArg (Task.store a v) ih'
    exact this _

end StdBLAS

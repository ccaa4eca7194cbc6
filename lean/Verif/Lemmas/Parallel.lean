import Mathlib.Logic.Hydra
import Mathlib.Data.Multiset.Range
import Verif.Spec.Parallel
import Verif.Spec.Memory
import Verif.Lemmas.Loops

/-!
# Lemmas about parallel loops

* rules for `Surely`,
* running one iteration alone (`Task.run`),
* one iteration alone with its footprint (`Task.Safe`),
* `parFor_owned`: iterations with separate footprints do not depend on the schedule.
-/

namespace StdBLAS
open Relation
variable {α β γ ι κ σ : Type} {h : Heap α}

/-! ## Surely -/

theorem Surely.mono {p : Sched α β} {Q Q' : β → Heap α → Prop} (hp : Surely p h Q)
    (hq : ∀ b h', Q b h' → Q' b h') : Surely p h Q' := by
  refine ⟨hp.1, fun r hr => ?_⟩
  obtain ⟨b, h', e, q⟩ := hp.2 r hr
  exact ⟨b, h', e, hq _ _ q⟩

theorem surely_lift {p : Prog α β} {Q : β → Heap α → Prop} :
    Surely (Sched.lift p) h Q ↔ Ends p h Q := by
  constructor
  · rintro ⟨-, H⟩
    exact H _ rfl
  · rintro ⟨b, h', e, q⟩
    refine ⟨⟨_, rfl⟩, fun r hr => ⟨b, h', ?_, q⟩⟩
    rw [← hr, e]

theorem surely_pure {b : β} {Q : β → Heap α → Prop} :
    Surely (pure b : Sched α β) h Q ↔ Q b h := by
  change Surely (Sched.lift (pure b)) h Q ↔ _
  rw [surely_lift, ends_pure]

theorem surely_bind {p : Sched α β} {f : β → Sched α γ} {Q : γ → Heap α → Prop}
    (hp : Surely p h (fun b h' => Surely (f b) h' Q)) : Surely (p >>= f) h Q := by
  obtain ⟨⟨r, hr⟩, H⟩ := hp
  constructor
  · obtain ⟨b, h', rfl, ⟨⟨r', hr'⟩, _⟩⟩ := H r hr
    exact ⟨r', Or.inr ⟨b, h', hr, hr'⟩⟩
  · rintro r' (⟨e, he, rfl⟩ | ⟨b, h', hb, hr'⟩)
    · obtain ⟨_, _, h0, _⟩ := H _ he
      cases h0
    · obtain ⟨b', h'', e, q⟩ := H _ hb
      cases e
      exact q.2 _ hr'

/-- A sequential loop around parallel calls: invariant rule. -/
theorem surely_forEach_inv {l : List ι} {body : ι → Sched α Unit}
    (I : List ι → Heap α → Prop)
    (hbody : ∀ pre i post, l = pre ++ i :: post → ∀ h, I pre h →
      Surely (body i) h (fun _ h' => I (pre ++ [i]) h'))
    (h0 : I [] h) :
    Surely (Sched.forEach l body) h (fun _ h' => I l h') := by
  suffices H : ∀ (post pre : List ι) h, l = pre ++ post → I pre h →
      Surely (Sched.forEach post body) h (fun _ h' => I l h') from H l [] h rfl h0
  intro post
  induction post with
  | nil =>
    intro pre h e hi
    refine surely_pure.2 ?_
    simpa [e] using hi
  | cons i post ih =>
    intro pre h e hi
    refine surely_bind ((hbody pre i post e h hi).mono fun _ h' r => ?_)
    exact ih (pre ++ [i]) h' (by simp [e]) r

theorem surelyFails_throw : SurelyFails (Sched.throw : Sched α β) h .exn := fun _ =>
  ⟨fun hr => hr.symm, fun hr => hr.symm⟩

theorem SurelyFails.bind {p : Sched α β} {e : Err} (hp : SurelyFails p h e)
    (f : β → Sched α γ) : SurelyFails (p >>= f) h e := by
  intro r
  constructor
  · rintro (⟨e', he, rfl⟩ | ⟨b, h', hb, _⟩)
    · have := (hp _).1 he
      injection this with this
      rw [this]
    · have := (hp _).1 hb
      cases this
  · rintro rfl
    exact Or.inl ⟨e, (hp _).2 rfl, rfl⟩

theorem SurelyFails.not_surely {p : Sched α β} {e : Err} (hp : SurelyFails p h e)
    (Q : β → Heap α → Prop) : ¬ Surely p h Q := by
  rintro ⟨-, H⟩
  obtain ⟨b, h', e', _⟩ := H _ ((hp _).2 rfl)
  cases e'

theorem surely_bind_iff {p : Sched α β} {f : β → Sched α γ} {b : β} {h' : Heap α}
    {Q : γ → Heap α → Prop} (hp : ∀ r, p h r ↔ r = .ok (b, h')) :
    Surely (p >>= f) h Q ↔ Surely (f b) h' Q := by
  have key : ∀ r, (p >>= f) h r ↔ f b h' r := by
    intro r
    constructor
    · rintro (⟨e, he, rfl⟩ | ⟨b', h'', hb, hr⟩)
      · cases (hp _).1 he
      · cases (hp _).1 hb
        exact hr
    · intro hr
      exact Or.inr ⟨b, h', (hp _).2 rfl, hr⟩
  unfold Surely
  simp only [key]

/-! ## One iteration alone -/

namespace Task

@[simp] theorem pure_run (b : β) : (pure b : Task α β).run = pure b := rfl
@[simp] theorem fail_run (e : Err) : (fail e : Task α β).run = Prog.fail e := rfl

@[simp] theorem bind_run (p : Task α β) (f : β → Task α γ) :
    (p >>= f).run = p.run >>= fun b => (f b).run := by
  change (p.bind f).run = _
  induction p with
  | done b => rfl
  | fail e => rfl
  | load a k ih =>
    funext h
    change Prog.seq _ _ h = Prog.seq (Prog.seq _ _) _ h
    unfold Prog.seq
    cases Prog.load a h with
    | error e => rfl
    | ok p =>
      obtain ⟨v, h'⟩ := p
      exact congrFun (ih v) h'
  | store a v k ih =>
    funext h
    change Prog.seq _ _ h = Prog.seq (Prog.seq _ _) _ h
    unfold Prog.seq
    cases Prog.store a v h with
    | error e => rfl
    | ok p =>
      obtain ⟨_, h'⟩ := p
      exact congrFun ih h'

@[simp] theorem forEach_run (l : List ι) (body : ι → Task α Unit) :
    (forEach l body).run = StdBLAS.forEach l (fun i => (body i).run) := by
  induction l with
  | nil => rfl
  | cons i l ih =>
    change (body i >>= fun _ => forEach l body).run = _
    rw [bind_run, ih]; rfl

@[simp] theorem foldEach_run (l : List ι) (s : σ) (body : σ → ι → Task α σ) :
    (foldEach l s body).run = StdBLAS.foldEach l s (fun s i => (body s i).run) := by
  induction l generalizing s with
  | nil => rfl
  | cons i l ih =>
    change (body s i >>= fun s' => foldEach l s' body).run = _
    rw [bind_run]
    change _ = ((body s i).run >>= fun s' => StdBLAS.foldEach l s' fun s i => (body s i).run)
    congr 1
    funext s'
    exact ih s'

@[simp] theorem forUp_run (lo hi : Nat) (body : Nat → Task α Unit) :
    (forUp lo hi body).run = StdBLAS.forUp lo hi (fun i => (body i).run) :=
  forEach_run _ _

@[simp] theorem foldUp_run (lo hi : Nat) (s : σ) (body : σ → Nat → Task α σ) :
    (foldUp lo hi s body).run =
      StdBLAS.foldEach (List.range' lo (hi - lo)) s (fun s i => (body s i).run) :=
  foldEach_run _ _ _

end Task

theorem bind_pure_prog (p : Prog α β) : (p >>= fun b => pure b) = p := by
  funext h
  change Prog.seq _ _ h = _
  unfold Prog.seq
  cases p h with
  | error e => rfl
  | ok q => rfl

@[simp] theorem Vec.rd_run (x : Vec) (i : Nat) : (x.rd i : Task α α).run = x.get i := by
  unfold Vec.rd Vec.get
  split
  · exact bind_pure_prog _
  · rfl

@[simp] theorem Mat.rd_run (A : Mat) (i j : Nat) : (A.rd i j : Task α α).run = A.get i j := by
  unfold Mat.rd Mat.get
  split
  · exact bind_pure_prog _
  · rfl

@[simp] theorem Vec.wr_run (x : Vec) (i : Nat) (v : α) : (x.wr i v).run = x.set i v := by
  unfold Vec.wr Vec.set
  split
  · exact bind_pure_prog _
  · rfl

@[simp] theorem Mat.wr_run (A : Mat) (i j : Nat) (v : α) : (A.wr i j v).run = A.set i j v := by
  unfold Mat.wr Mat.set
  split
  · exact bind_pure_prog _
  · rfl

/-! ## Running alone, with a footprint -/

namespace Task
variable {R W R' W' : Nat → Prop} {Q Q' : β → Heap α → Prop}

theorem Safe.mono {p : Task α β} (hp : p.Safe R W h Q) (hR : ∀ a, R a → R' a)
    (hW : ∀ a, W a → W' a) (hQ : ∀ b g, Q b g → Q' b g) : p.Safe R' W' h Q' := by
  induction p generalizing h with
  | done b => exact hQ _ _ hp
  | fail e => exact hp
  | load a k ih =>
    obtain ⟨h1, v, h2, h3⟩ := hp
    exact ⟨hR a h1, v, h2, ih v h3⟩
  | store a v k ih => exact ⟨⟨hW a hp.1.1, hp.1.2⟩, ih hp.2⟩

theorem Safe.post {p : Task α β} (hp : p.Safe R W h Q) (hQ : ∀ b g, Q b g → Q' b g) :
    p.Safe R W h Q' := hp.mono (fun _ h => h) (fun _ h => h) hQ

/-- What a task does depends only on the cells it accesses. -/
theorem Safe.congr {p : Task α β} (loc : ∀ b g g', (∀ a, W a → g a = g' a) → Q b g → Q b g')
    {h h' : Heap α} (eR : ∀ a, R a → h a = h' a) (eW : ∀ a, W a → h a = h' a)
    (hp : p.Safe R W h Q) : p.Safe R W h' Q := by
  induction p generalizing h h' with
  | done b => exact loc _ _ _ eW hp
  | fail e => exact hp
  | load a k ih =>
    obtain ⟨h1, v, h2, h3⟩ := hp
    exact ⟨h1, v, by rw [← eR a h1, h2], ih v eR eW h3⟩
  | store a v k ih =>
    obtain ⟨⟨h1, w, h2⟩, h3⟩ := hp
    refine ⟨⟨h1, w, by rw [← eW a h1, h2]⟩, ih (fun b hb => ?_) (fun b hb => ?_) h3⟩ <;>
    · by_cases e : b = a
      · rw [e, Function.update_self, Function.update_self]
      · rw [Function.update_of_ne e, Function.update_of_ne e]
        first | exact eR b hb | exact eW b hb

/-- Cells outside the written ones keep their value. -/
theorem Safe.frame {p : Task α β} (hp : p.Safe R W h Q) :
    p.Safe R W h (fun b g => Q b g ∧ OnlyChanges W h g) := by
  induction p generalizing h with
  | done b => exact ⟨hp, fun _ _ => rfl⟩
  | fail e => exact hp
  | load a k ih =>
    obtain ⟨h1, v, h2, h3⟩ := hp
    exact ⟨h1, v, h2, ih v h3⟩
  | store a v k ih =>
    refine ⟨hp.1, (ih hp.2).post fun b g q => ⟨q.1, fun c hc => ?_⟩⟩
    rw [q.2 c hc, Function.update_of_ne]
    rintro rfl
    exact hc hp.1.1

/-- A task with a footprint, run alone. -/
theorem Safe.ends {p : Task α β} (hp : p.Safe R W h Q) : Ends p.run h Q := by
  induction p generalizing h with
  | done b => exact ends_pure.2 hp
  | fail e => exact hp.elim
  | load a k ih =>
    obtain ⟨-, v, h2, h3⟩ := hp
    exact ends_bind.2 (ends_load.2 ⟨v, h2, ih v h3⟩)
  | store a v k ih => exact ends_bind.2 (ends_store.2 ⟨hp.1.2, ih hp.2⟩)

theorem Safe.mono_reads {p : Task α β} (hp : p.Safe R W h Q) (hR : ∀ a, R a → R' a) :
    p.Safe R' W h Q := hp.mono hR (fun _ h => h) (fun _ _ h => h)

/-- What is known of the final state may be added. -/
theorem Safe.with_ends {p : Task α β} (hp : p.Safe R W h Q) (he : Ends p.run h Q') :
    p.Safe R W h Q' := by
  induction p generalizing h with
  | done b => exact ends_pure.1 he
  | fail e => exact hp
  | load a k ih =>
    obtain ⟨h1, v, h2, h3⟩ := hp
    refine ⟨h1, v, h2, ih v h3 ?_⟩
    obtain ⟨v', h2', he'⟩ := ends_load.1 (ends_bind.1 he)
    rw [h2] at h2'; cases h2'
    exact he'
  | store a v k ih => exact ⟨hp.1, ih hp.2 (ends_store.1 (ends_bind.1 he)).2⟩

theorem safe_pure {b : β} : (pure b : Task α β).Safe R W h Q ↔ Q b h := Iff.rfl

theorem safe_bind {p : Task α β} {f : β → Task α γ} {Q : γ → Heap α → Prop} :
    (p >>= f).Safe R W h Q ↔ p.Safe R W h (fun b g => (f b).Safe R W g Q) := by
  change (p.bind f).Safe R W h Q ↔ _
  induction p generalizing h with
  | done b => exact Iff.rfl
  | fail e => exact Iff.rfl
  | load a k ih =>
    refine and_congr_right fun _ => exists_congr fun v => and_congr_right fun _ => ih v
  | store a v k ih => exact and_congr_right fun _ => ih

theorem safe_forEach_inv {l : List ι} {body : ι → Task α Unit} (I : List ι → Heap α → Prop)
    (hbody : ∀ pre i post, l = pre ++ i :: post → ∀ h, I pre h →
      (body i).Safe R W h (fun _ h' => I (pre ++ [i]) h'))
    (h0 : I [] h) : (forEach l body).Safe R W h (fun _ h' => I l h') := by
  suffices H : ∀ (post pre : List ι) h, l = pre ++ post → I pre h →
      (forEach post body).Safe R W h (fun _ h' => I l h') from H l [] h rfl h0
  intro post
  induction post with
  | nil =>
    intro pre h e hi
    refine safe_pure.2 ?_
    simpa [e] using hi
  | cons i post ih =>
    intro pre h e hi
    exact safe_bind.2 ((hbody pre i post e h hi).post fun _ h' r =>
      ih (pre ++ [i]) h' (by simp [e]) r)

/-- A loop that only reads computes a fold. -/
theorem safe_foldEach {l : List ι} {body : σ → ι → Task α σ} (step : σ → ι → σ)
    (hbody : ∀ i ∈ l, ∀ s, (body s i).Safe R W h (fun s' h' => s' = step s i ∧ h' = h)) {s : σ} :
    (foldEach l s body).Safe R W h (fun s' h' => s' = l.foldl step s ∧ h' = h) := by
  induction l generalizing s with
  | nil => exact ⟨rfl, rfl⟩
  | cons i l ih =>
    refine safe_bind.2 ((hbody i (by simp) s).post ?_)
    rintro s' h' ⟨rfl, rfl⟩
    exact ih fun j hj => hbody j (List.mem_cons_of_mem _ hj)

theorem safe_foldUp {lo hi : Nat} {body : σ → Nat → Task α σ} (step : σ → Nat → σ)
    (hbody : ∀ i, lo ≤ i → i < hi → ∀ s,
      (body s i).Safe R W h (fun s' h' => s' = step s i ∧ h' = h)) {s : σ} :
    (foldUp lo hi s body).Safe R W h
      (fun s' h' => s' = (List.range' lo (hi - lo)).foldl step s ∧ h' = h) :=
  safe_foldEach step fun i hi' => hbody i (mem_up.1 hi').1 (mem_up.1 hi').2

/-- A loop that updates one cell computes a fold in it. -/
theorem safe_forEach_acc {l : List ι} {body : ι → Task α Unit} (a : Nat) (step : α → ι → α)
    (hbody : ∀ i ∈ l, ∀ s, (body i).Safe R W (Function.update h a (some s))
      (fun _ g => g = Function.update h a (some (step s i)))) {s : α} :
    (forEach l body).Safe R W (Function.update h a (some s))
      (fun _ g => g = Function.update h a (some (l.foldl step s))) := by
  induction l generalizing s with
  | nil => exact rfl
  | cons i l ih =>
    refine safe_bind.2 ((hbody i (by simp) s).post ?_)
    rintro _ _ rfl
    exact ih fun j hj => hbody j (List.mem_cons_of_mem _ hj)

end Task

section access
variable {R W : Nat → Prop}

theorem Vec.safe_rd {x : Vec} {i : Nat} {Q : α → Heap α → Prop} {v : α} (hi : i < x.ext)
    (hr : R (x.addr i)) (hv : h (x.addr i) = some v) :
    (x.rd i).Safe R W h Q ↔ Q v h := by
  unfold Vec.rd
  rw [if_pos hi]
  constructor
  · rintro ⟨_, w, hw, q⟩
    rw [hv] at hw; cases hw
    exact q
  · exact fun q => ⟨hr, v, hv, q⟩

theorem Mat.safe_rd {A : Mat} {i j : Nat} {Q : α → Heap α → Prop} {v : α} (hi : i < A.rows)
    (hj : j < A.cols) (hr : R (A.addr i j)) (hv : h (A.addr i j) = some v) :
    (A.rd i j).Safe R W h Q ↔ Q v h := by
  unfold Mat.rd
  rw [if_pos ⟨hi, hj⟩]
  constructor
  · rintro ⟨_, w, hw, q⟩
    rw [hv] at hw; cases hw
    exact q
  · exact fun q => ⟨hr, v, hv, q⟩

theorem Vec.safe_wr {x : Vec} {i : Nat} {Q : Unit → Heap α → Prop} {v w : α} (hi : i < x.ext)
    (hw : W (x.addr i)) (hv : h (x.addr i) = some w) :
    (x.wr i v).Safe R W h Q ↔ Q () (Function.update h (x.addr i) (some v)) := by
  unfold Vec.wr
  rw [if_pos hi]
  exact ⟨fun q => q.2, fun q => ⟨⟨hw, w, hv⟩, q⟩⟩

theorem Mat.safe_wr {A : Mat} {i j : Nat} {Q : Unit → Heap α → Prop} {v w : α} (hi : i < A.rows)
    (hj : j < A.cols) (hw : W (A.addr i j)) (hv : h (A.addr i j) = some w) :
    (A.wr i j v).Safe R W h Q ↔ Q () (Function.update h (A.addr i j) (some v)) := by
  unfold Mat.wr
  rw [if_pos ⟨hi, hj⟩]
  exact ⟨fun q => q.2, fun q => ⟨⟨hw, w, hv⟩, q⟩⟩

end access

/-! ## Termination -/

/-- `p` is what is left of `q` after one access. -/
def Task.Rest (p q : Task α β) : Prop :=
  (∃ a k v, q = .load a k ∧ p = k v) ∨ ∃ a v, q = .store a v p

theorem Task.rest_wf : WellFounded (Task.Rest (α := α) (β := β)) := by
  refine ⟨fun q => ?_⟩
  induction q with
  | done b =>
    refine ⟨_, ?_⟩
    rintro p (⟨_, _, _, e, _⟩ | ⟨_, _, e⟩) <;> cases e
  | fail e =>
    refine ⟨_, ?_⟩
    rintro p (⟨_, _, _, e, _⟩ | ⟨_, _, e⟩) <;> cases e
  | load a k ih =>
    refine ⟨_, ?_⟩
    rintro p (⟨_, _, v, e, rfl⟩ | ⟨_, _, e⟩)
    · cases e; exact ih v
    · cases e
  | store a v k ih =>
    refine ⟨_, ?_⟩
    rintro p (⟨_, _, _, e, _⟩ | ⟨_, _, e⟩)
    · cases e
    · cases e; exact ih

/-- What is left to do, as a multiset. -/
def Pool.left (n : Nat) (c : Pool α) : Multiset (Task α Unit) :=
  (Multiset.range n).map c.todo

theorem Pool.left_update {n i : Nat} (hi : i < n) (ts : Nat → Task α Unit) (p : Task α Unit)
    (h h' : Heap α) :
    Pool.left n ⟨Function.update ts i p, h⟩ + {ts i} = Pool.left n ⟨ts, h'⟩ + {p} := by
  have hm : i ∈ Multiset.range n := Multiset.mem_range.2 hi
  unfold Pool.left
  simp only
  rw [← Multiset.cons_erase hm, Multiset.map_cons, Multiset.map_cons, Function.update_self]
  have : ((Multiset.range n).erase i).map (Function.update ts i p) =
      ((Multiset.range n).erase i).map ts := by
    refine Multiset.map_congr rfl fun j hj => ?_
    rw [Function.update_of_ne]
    rintro rfl
    exact (Multiset.nodup_range n).notMem_erase hj
  rw [this, Multiset.add_comm _ {ts i}, Multiset.add_comm _ {p}, Multiset.singleton_add,
    Multiset.singleton_add, Multiset.cons_swap]

theorem Step.cutExpand {n : Nat} {c c' : Pool α} (s : Step n c c') :
    CutExpand Task.Rest (c'.left n) (c.left n) := by
  cases s with
  | load hi e hv =>
    rename_i ts h i a k v
    refine ⟨{k v}, ts i, ?_, Pool.left_update hi ts (k v) h h⟩
    intro p hp
    rw [Multiset.mem_singleton] at hp
    rw [hp, e]
    exact Or.inl ⟨a, k, v, rfl, rfl⟩
  | store hi e hv =>
    rename_i ts h i a k v w
    refine ⟨{k}, ts i, ?_, Pool.left_update hi ts k _ h⟩
    intro p hp
    rw [Multiset.mem_singleton] at hp
    rw [hp, e]
    exact Or.inr ⟨a, v, rfl⟩

theorem step_wf (n : Nat) : WellFounded (fun c c' : Pool α => Step n c' c) :=
  Subrelation.wf (r := InvImage (CutExpand Task.Rest) (Pool.left n)) (fun s => s.cutExpand)
    (InvImage.wf _ Task.rest_wf.cutExpand)

/-! ## Schedules do not matter -/

section parfor
variable {n : Nat} {body : Nat → Task α Unit}

/-- Iteration `i` owns the cells `own i` and writes no others; it reads no cell that another
iteration owns.  Then no schedule fails, races or changes the result of any iteration. -/
theorem parFor_owned (own : Nat → Nat → Prop) (P : Nat → Heap α → Prop)
    (disj : ∀ i j, i < n → j < n → i ≠ j → ∀ a, own i a → ¬ own j a)
    (loc : ∀ i, i < n → ∀ g g', (∀ a, own i a → g a = g' a) → P i g → P i g')
    (safe : ∀ i, i < n → (body i).Safe (fun a => ∀ j, j < n → j ≠ i → ¬ own j a) (own i) h
      (fun _ g => P i g)) :
    Surely (parFor n body) h (fun _ h' =>
      (∀ i, i < n → P i h') ∧ OnlyChanges (fun a => ∃ i, i < n ∧ own i a) h h') := by
  -- the invariant of all reachable states
  let Inv : Pool α → Prop := fun c =>
    OnlyChanges (fun a => ∃ i, i < n ∧ own i a) h c.mem ∧
    ∀ i, i < n → (c.todo i).Safe (fun a => ∀ j, j < n → j ≠ i → ¬ own j a) (own i) c.mem
      (fun _ g => P i g)
  have inv0 : Inv ⟨body, h⟩ := ⟨fun _ _ => rfl, safe⟩
  have invS : ∀ c c', Inv c → Step n c c' → Inv c' := by
    rintro c c' ⟨i3, i4⟩ s
    cases s with
    | load hi e hv =>
      rename_i ts h1 i a k v
      have ei := i4 i hi
      simp only at ei
      rw [e] at ei
      refine ⟨i3, fun j hj => ?_⟩
      by_cases ej : j = i
      · subst ej
        simp only [Function.update_self]
        obtain ⟨-, v', hv', r⟩ := ei
        rw [hv] at hv'; cases hv'
        exact r
      · simp only [Function.update_of_ne ej]; exact i4 j hj
    | store hi e hv =>
      rename_i ts h1 i a k v w
      have ei := i4 i hi
      simp only at ei
      rw [e] at ei
      refine ⟨fun b hb => ?_, fun j hj => ?_⟩
      · have : b ≠ a := by
          rintro rfl
          exact hb ⟨i, hi, ei.1.1⟩
        simp only [Function.update_of_ne this]
        exact i3 b hb
      · by_cases ej : j = i
        · subst ej
          simp only [Function.update_self]
          exact ei.2
        · simp only [Function.update_of_ne ej]
          refine (i4 j hj).congr (fun _ => loc j hj) (fun b hb => ?_) (fun b hb => ?_)
          · rw [Function.update_of_ne]
            rintro rfl
            exact hb i hi (Ne.symm ej) ei.1.1
          · rw [Function.update_of_ne]
            rintro rfl
            exact disj i j hi hj (Ne.symm ej) _ ei.1.1 hb
  have invR : ∀ c, ReflTransGen (Step n) ⟨body, h⟩ c → Inv c := by
    intro c hc
    induction hc with
    | refl => exact inv0
    | tail _ s ih => exact invS _ _ ih s
  -- no reachable state is stuck
  have progress : ∀ c, Inv c → (∃ c', Step n c c') ∨ ∀ i, i < n → (c.todo i).Ended := by
    rintro ⟨ts, h1⟩ ⟨-, i4⟩
    by_cases fin : ∀ i, i < n → (ts i).Ended
    · exact Or.inr fin
    · left
      push Not at fin
      obtain ⟨i, hi, ne⟩ := fin
      have wi := i4 i hi
      simp only at wi
      cases e : ts i with
      | done b => rw [e] at ne; exact (ne trivial).elim
      | fail e' => rw [e] at wi; exact wi.elim
      | load a k =>
        rw [e] at wi
        obtain ⟨-, v, hv, -⟩ := wi
        exact ⟨_, Step.load hi e hv⟩
      | store a v k =>
        rw [e] at wi
        obtain ⟨⟨-, w, hw⟩, -⟩ := wi
        exact ⟨_, Step.store hi e hw⟩
  constructor
  · -- some schedule ends
    have : ∀ c, Inv c → ∃ c', ReflTransGen (Step n) c c' ∧ ∀ i, i < n → (c'.todo i).Ended := by
      intro c
      induction c using (step_wf n).induction with
      | _ c ih =>
        intro ic
        rcases progress c ic with ⟨c', s⟩ | fin
        · obtain ⟨c'', r, f⟩ := ih c' s (invS _ _ ic s)
          exact ⟨c'', ReflTransGen.head s r, f⟩
        · exact ⟨c, .refl, fin⟩
    obtain ⟨c, r, f⟩ := this _ inv0
    exact ⟨_, c, r, Or.inl ⟨f, rfl⟩⟩
  · rintro r ⟨c, hc, H⟩
    obtain ⟨i3, i4⟩ := invR c hc
    rcases H with ⟨fin, rfl⟩ | ⟨i, e, hi, hf, rfl⟩ | ⟨⟨i, j, a, hi, hj, ne, hw, ha⟩, rfl⟩
    · refine ⟨(), c.mem, rfl, fun i hi => ?_, i3⟩
      have ei := i4 i hi
      have fi := fin i hi
      cases e : c.todo i with
      | done b =>
        rw [e] at ei
        exact ei
      | fail e' => rw [e] at fi; exact fi.elim
      | load a k => rw [e] at fi; exact fi.elim
      | store a v k => rw [e] at fi; exact fi.elim
    · exfalso
      have wi := i4 i hi
      cases e' : c.todo i with
      | done b => rw [e'] at hf; exact hf
      | fail e => rw [e'] at wi; exact wi
      | load a k =>
        rw [e'] at hf wi
        obtain ⟨-, v, hv, -⟩ := wi
        rw [hf.1] at hv; cases hv
      | store a v k =>
        rw [e'] at hf wi
        obtain ⟨⟨-, w, hw⟩, -⟩ := wi
        rw [hf.1] at hw; cases hw
    · exfalso
      have wi := i4 i hi
      have wj := i4 j hj
      cases e : c.todo i with
      | done b => rw [e] at hw; exact hw
      | fail e' => rw [e] at hw; exact hw
      | load b k => rw [e] at hw; exact hw
      | store b v k =>
        rw [e] at hw wi
        cases hw
        cases e' : c.todo j with
        | done b => rw [e'] at ha; exact ha
        | fail e' => rw [e'] at ha; exact ha
        | load b' k' =>
          rw [e'] at ha wj
          cases ha
          exact wj.1 i hi ne wi.1.1
        | store b' v' k' =>
          rw [e'] at ha wj
          cases ha
          exact disj i j hi hj ne _ wi.1.1 wj.1.1

/-- Loop nests in which every innermost iteration writes one cell of its own. -/
theorem parFor_cells {m : Nat → List κ} {body : Nat → κ → Task α Unit}
    (addr : Nat → κ → Nat) (f : Nat → κ → α)
    (hm : ∀ p, p < n → (m p).Nodup)
    (inj : ∀ p, p < n → ∀ q ∈ m p, ∀ p', p' < n → ∀ q' ∈ m p',
      addr p q = addr p' q' → p = p' ∧ q = q')
    (safe : ∀ p, p < n → ∀ q ∈ m p, (body p q).Safe
      (fun a => a = addr p q ∨ ∀ p', p' < n → ∀ q' ∈ m p', addr p' q' ≠ a)
      (fun a => a = addr p q) h (fun _ g => g (addr p q) = some (f p q))) :
    Surely (parFor n fun p => Task.forEach (m p) (body p)) h (fun _ h' =>
      (∀ p, p < n → ∀ q ∈ m p, h' (addr p q) = some (f p q)) ∧
        OnlyChanges (fun a => ∃ p, p < n ∧ ∃ q ∈ m p, addr p q = a) h h') := by
  refine parFor_owned (fun p a => ∃ q ∈ m p, addr p q = a)
    (fun p g => ∀ q ∈ m p, g (addr p q) = some (f p q)) ?_ ?_ ?_
  · rintro i j hi hj ne a ⟨q, hq, rfl⟩ ⟨q', hq', e⟩
    exact ne (inj j hj q' hq' i hi q hq e).1.symm
  · intro i hi g g' eq hp q hq
    rw [← eq _ ⟨q, hq, rfl⟩]
    exact hp q hq
  · intro p hp
    refine (Task.safe_forEach_inv (fun pre g => (∀ q ∈ pre, g (addr p q) = some (f p q)) ∧
      OnlyChanges (fun a => ∃ q ∈ pre, addr p q = a) h g) ?_ ⟨by simp, fun _ _ => rfl⟩).post
      fun _ g r => r.1
    rintro pre q post e g ⟨g1, g2⟩
    have hq : q ∈ m p := by rw [e]; simp
    have hsub : ∀ q' ∈ pre, q' ∈ m p := fun q' h => by rw [e]; simp [h]
    have hne : ∀ q' ∈ pre, addr p q' ≠ addr p q := by
      intro q' h' e'
      have := (inj p hp q' (hsub q' h') p hp q hq e').2
      have nd := hm p hp
      rw [e, List.nodup_append] at nd
      exact nd.2.2 q' h' q (by simp) this
    have own : g (addr p q) = h (addr p q) := g2 _ (by rintro ⟨q', h', e'⟩; exact hne q' h' e')
    refine ((Task.Safe.congr ?_ ?_ ?_ (safe p hp q hq)).frame.mono ?_ ?_ ?_)
    · intro _ g g' eq r
      rw [← eq _ rfl]; exact r
    · rintro a (rfl | ha)
      · exact own.symm
      · refine (g2 a ?_).symm
        rintro ⟨q', h', e'⟩
        exact ha p hp q' (hsub q' h') e'
    · rintro a rfl
      exact own.symm
    · rintro a (rfl | ha) j hj ne ⟨q', h', e'⟩
      · exact ne (inj j hj q' h' p hp q hq e').1
      · exact ha j hj q' h' e'
    · rintro a rfl
      exact ⟨q, hq, rfl⟩
    · rintro _ g' ⟨r1, r2⟩
      refine ⟨?_, ?_⟩
      · intro q' h'
        rcases List.mem_append.1 h' with h' | h'
        · rw [r2 _ (hne q' h')]; exact g1 q' h'
        · obtain rfl := List.mem_singleton.1 h'
          exact r1
      · intro a ha
        rw [r2 a ?_]
        · refine g2 a ?_
          rintro ⟨q', h', e'⟩
          exact ha ⟨q', by simp [h'], e'⟩
        · rintro rfl
          exact ha ⟨q, by simp, rfl⟩

/-- A loop in which every iteration writes one element of a vector. -/
theorem parFor_vec {y : Vec} (f : Nat → α) (hn : n = y.ext) (hu : y.Unique)
    (safe : ∀ i, i < n → (body i).Safe (fun a => a = y.addr i ∨ ¬ y.Cell a)
      (fun a => a = y.addr i) h (fun _ g => g (y.addr i) = some (f i))) :
    Surely (parFor n body) h (fun _ h' => y.Becomes h h' f) := by
  subst hn
  refine (parFor_owned (fun i a => a = y.addr i) (fun i g => g (y.addr i) = some (f i))
    ?_ ?_ ?_).mono ?_
  · rintro i j hi hj ne a rfl e
    exact ne (hu i j hi hj e)
  · intro i hi g g' eq r
    rw [← eq _ rfl]; exact r
  · intro i hi
    refine (safe i hi).mono ?_ (fun _ h => h) (fun _ _ h => h)
    rintro a (rfl | ha) j hj ne e
    · exact ne (hu j i hj hi e.symm)
    · exact ha ⟨j, hj, e.symm⟩
  · rintro _ h' ⟨r1, r2⟩
    exact ⟨r1, r2.mono fun a ⟨i, hi, e⟩ => ⟨i, hi, e.symm⟩⟩

end parfor

end StdBLAS

import Verif.Lemmas.Kokkos
import Verif.Lemmas.KokkosReductions
import Verif.Spec.Parallel

/-! # Lemmas about the run-time checks of the Kokkos backend -/

namespace StdBLAS
variable {α β γ ι σ : Type}

/-! ## Code that does not throw -/

/-- No path through the task throws. -/
def Task.NoThrow : Task α β → Prop
  | .done _ => True
  | .fail e => e ≠ .exn
  | .load _ k => ∀ v, (k v).NoThrow
  | .store _ _ k => k.NoThrow

namespace Task.NoThrow

theorem pure (b : β) : (pure b : Task α β).NoThrow := trivial

theorem bind {p : Task α β} {f : β → Task α γ} (hp : p.NoThrow) (hf : ∀ b, (f b).NoThrow) :
    (p >>= f).NoThrow := by
  change (p.bind f).NoThrow
  induction p with
  | done b => exact hf b
  | fail e => exact hp
  | load a k ih => exact fun v => ih v (hp v)
  | store a v k ih => exact ih hp

theorem forEach {l : List ι} {body : ι → Task α Unit} (hb : ∀ i, (body i).NoThrow) :
    (Task.forEach l body).NoThrow := by
  induction l with
  | nil => trivial
  | cons i l ih => exact bind (hb i) fun _ => ih

theorem foldEach {l : List ι} {body : σ → ι → Task α σ} (hb : ∀ s i, (body s i).NoThrow) (s : σ) :
    (Task.foldEach l s body).NoThrow := by
  induction l generalizing s with
  | nil => trivial
  | cons i l ih => exact bind (hb s i) fun s' => ih s'

theorem forUp {lo hi : Nat} {body : Nat → Task α Unit} (hb : ∀ i, (body i).NoThrow) :
    (Task.forUp lo hi body).NoThrow := forEach hb

theorem foldUp {lo hi : Nat} {body : σ → Nat → Task α σ} (hb : ∀ s i, (body s i).NoThrow) (s : σ) :
    (Task.foldUp lo hi s body).NoThrow := foldEach hb s

theorem vecRd (x : Vec) (i : Nat) : (x.rd i : Task α α).NoThrow := by
  unfold Vec.rd
  split
  · exact fun _ => trivial
  · exact fun e => by cases e

theorem vecWr (x : Vec) (i : Nat) (v : α) : (x.wr i v).NoThrow := by
  unfold Vec.wr
  split
  · trivial
  · exact fun e => by cases e

theorem matRd (A : Mat) (i j : Nat) : (A.rd i j : Task α α).NoThrow := by
  unfold Mat.rd
  split
  · exact fun _ => trivial
  · exact fun e => by cases e

theorem matWr (A : Mat) (i j : Nat) (v : α) : (A.wr i j v).NoThrow := by
  unfold Mat.wr
  split
  · trivial
  · exact fun e => by cases e

theorem incr [Add α] (A : Mat) (i j : Nat) (v : α) : (A.incr i j v).NoThrow :=
  bind (matRd ..) fun _ => matWr ..

end Task.NoThrow

/-- No schedule of the call throws, whatever memory holds. -/
def NeverThrows (p : Sched α β) : Prop := ∀ h, ¬ p h (.error .exn)

theorem parFor_neverThrows {n : Nat} {body : Nat → Task α Unit} (hb : ∀ i, (body i).NoThrow) :
    NeverThrows (parFor n body) := by
  rintro h ⟨c, run, fin⟩
  have inv : ∀ i, (c.todo i).NoThrow := by
    clear fin
    induction run with
    | refl => exact hb
    | tail run0 s ih =>
      cases s with
      | load hi ht hv =>
        rename_i j a k v
        intro i
        by_cases e : i = j
        · subst e
          simp only [Function.update_self]
          have := ih i
          simp only at this
          rw [ht] at this
          exact this v
        · simp only [Function.update_of_ne e]
          exact ih i
      | store hi ht hv =>
        rename_i j a k v w
        intro i
        by_cases e : i = j
        · subst e
          simp only [Function.update_self]
          have := ih i
          simp only at this
          rw [ht] at this
          exact this
        · simp only [Function.update_of_ne e]
          exact ih i
  rcases fin with ⟨_, e⟩ | ⟨i, e, hi, hf, e'⟩ | ⟨_, e⟩
  · cases e
  · cases e'
    have := inv i
    revert this hf
    cases c.todo i with
    | done b => exact fun hf => hf.elim
    | fail e => exact fun hf ht => ht hf
    | load a k => exact fun hf => by cases hf.2
    | store a v k => exact fun hf => by cases hf.2
  · cases e

/-- No path through the read-only code throws. -/
def Rd.NoThrow (p : Rd α β) : Prop := ∀ h, p h ≠ .error .exn

namespace Rd.NoThrow

theorem pure (b : β) : NoThrow (pure b : Rd α β) := fun _ e => by cases e

theorem bind {p : Rd α β} {f : β → Rd α γ} (hp : NoThrow p) (hf : ∀ b, NoThrow (f b)) :
    NoThrow (p >>= f) := by
  intro h e
  change Except.bind (p h) (fun b => f b h) = _ at e
  cases hq : p h with
  | error e' =>
    rw [hq] at e
    cases e
    exact hp h hq
  | ok b =>
    rw [hq] at e
    exact hf b h e

theorem foldlM {l : List ι} {body : σ → ι → Rd α σ} (hb : ∀ s i, NoThrow (body s i)) (s : σ) :
    NoThrow (l.foldlM body s) := by
  induction l generalizing s with
  | nil => exact pure s
  | cons i l ih =>
    rw [List.foldlM_cons]
    exact bind (hb s i) fun s' => ih s'

theorem foldUp {lo hi : Nat} {body : σ → Nat → Rd α σ} (hb : ∀ s i, NoThrow (body s i)) (s : σ) :
    NoThrow (Rd.foldUp lo hi s body) := foldlM hb s

theorem cell (a : Nat) : NoThrow (Rd.cell a : Rd α α) := by
  intro h e
  unfold Rd.cell at e
  split at e <;> cases e

theorem vecLook (x : Vec) (i : Nat) : NoThrow (x.look i : Rd α α) := by
  unfold Vec.look
  split
  · exact cell _
  · exact fun _ e => by cases e

theorem matLook (A : Mat) (i j : Nat) : NoThrow (A.look i j : Rd α α) := by
  unfold Mat.look
  split
  · exact cell _
  · exact fun _ e => by cases e

theorem divLook (a b : ℝ) : NoThrow (StdBLAS.divLook a b : Rd α ℝ) := by
  unfold StdBLAS.divLook
  split
  · exact fun _ e => by cases e
  · exact pure _

theorem eval {body : Nat → σ → Rd α σ} (hb : ∀ i s, NoThrow (body i s)) (e : σ)
    (join : σ → σ → σ) (t : RedTree) : NoThrow (t.eval body e join) := by
  induction t with
  | chunk l => exact foldlM (fun s i => hb i s) e
  | join s t hs ht => exact bind hs fun a => bind ht fun b => pure _

end Rd.NoThrow

theorem parReduce_neverThrows {n : Nat} {body : Nat → σ → Rd α σ} {e : σ} {join : σ → σ → σ}
    (hb : ∀ i s, Rd.NoThrow (body i s)) : NeverThrows (parReduce n body e join) := by
  rintro h ⟨t, _, ht⟩
  unfold Rd.prog at ht
  cases hv : t.eval body e join h with
  | error e' =>
    rw [hv] at ht
    cases ht
    exact Rd.NoThrow.eval hb e join t h hv
  | ok b =>
    rw [hv] at ht
    cases ht

namespace NeverThrows

theorem pure (b : β) : NeverThrows (pure b : Sched α β) := fun _ e => by cases e

theorem lift {p : Prog α β} (hp : ∀ h, p h ≠ .error .exn) : NeverThrows (Sched.lift p) := hp

theorem bind {p : Sched α β} {f : β → Sched α γ} (hp : NeverThrows p) (hf : ∀ b, NeverThrows (f b)) :
    NeverThrows (p >>= f) := by
  rintro h (⟨e, he, e'⟩ | ⟨b, h', _, hb⟩)
  · cases e'; exact hp h he
  · exact hf b h' hb

theorem forEach {l : List ι} {body : ι → Sched α Unit} (hb : ∀ i, NeverThrows (body i)) :
    NeverThrows (Sched.forEach l body) := by
  induction l with
  | nil => exact pure ()
  | cons i l ih => exact bind (hb i) fun _ => ih

theorem forEachMatrixElement {A : Mat} {action : Nat → Nat → Task α Unit}
    (ha : ∀ i j, (action i j).NoThrow) : NeverThrows (forEachMatrixElement A action) := by
  unfold StdBLAS.forEachMatrixElement
  split
  · exact parFor_neverThrows fun i => .forUp fun j => ha i j
  · exact parFor_neverThrows fun j => .forUp fun i => ha i j

theorem forEachTriangleElement {A : Mat} {t : Triangle} {action : Nat → Nat → Task α Unit}
    (ha : ∀ i j, (action i j).NoThrow) : NeverThrows (forEachTriangleElement A t action) := by
  unfold StdBLAS.forEachTriangleElement StdBLAS.forEachUpperElement
  split
  · exact parFor_neverThrows fun j => .forUp fun i => ha i j
  · exact parFor_neverThrows fun j => .forUp fun i => ha j i

theorem kkProduct [Add α] {A C : KMat} {init : Nat → Nat → Task α α}
    {term : Nat → Nat → Nat → Task α α} (hi : ∀ i j, (init i j).NoThrow)
    (ht : ∀ i j k, (term i j k).NoThrow) : NeverThrows (kkProduct A C init term) :=
  forEachMatrixElement fun i j =>
    (hi i j).bind fun _ => (Task.NoThrow.matWr ..).bind fun _ =>
      .forUp fun k => (ht i j k).bind fun _ => .incr ..

end NeverThrows

/-! ## Checks -/

namespace ThrowsIff

theorem of_never {p : Sched α β} (hp : NeverThrows p) : ThrowsIff p False := ⟨False.elim, fun _ => hp⟩

theorem require {c bad : Prop} [Decidable c] {k : Unit → Sched α β} (hk : ThrowsIff (k ()) bad) :
    ThrowsIff (require c >>= k) (¬ c ∨ bad) := by
  by_cases hc : c
  · have e : (StdBLAS.require c >>= k) = k () := by
      unfold StdBLAS.require
      rw [if_pos hc]
      exact sched_pure_bind () k
    rw [e]
    refine ⟨fun hb => hk.1 (hb.resolve_left (not_not_intro hc)), fun hb => hk.2 fun b => hb (Or.inr b)⟩
  · exact ⟨fun _ h => fails_require_bind hc k, fun hb => absurd (Or.inl hc) hb⟩

theorem last {c : Prop} [Decidable c] : ThrowsIff (StdBLAS.require c : Sched α Unit) (¬ c) := by
  unfold StdBLAS.require
  by_cases hc : c
  · rw [if_pos hc]
    exact ⟨fun hb => absurd hc hb, fun _ => NeverThrows.pure ()⟩
  · rw [if_neg hc]
    exact ⟨fun _ h => surelyFails_throw, fun hb => absurd hc hb⟩

theorem congr {p : Sched α β} {bad bad' : Prop} (hp : ThrowsIff p bad) (e : bad' ↔ bad) :
    ThrowsIff p bad' := by
  rw [propext e]; exact hp

/-- Checks in a function of their own. -/
theorem checks {p : Sched α Unit} {k : Unit → Sched α β} {bad : Prop} (hp : ThrowsIff p bad)
    (hk : NeverThrows (k ())) : ThrowsIff (p >>= k) bad := by
  refine ⟨fun hb h => (hp.1 hb h).bind k, fun hb h => ?_⟩
  rintro (⟨e, he, e'⟩ | ⟨b, h', _, hr⟩)
  · cases e'; exact hp.2 hb h he
  · exact hk h' hr

theorem checks2 {p : Sched α Unit} {k : Unit → Sched α β} {bad bad' : Prop}
    (hp : ThrowsIff p bad) (hk : ThrowsIff (k ()) bad') (ok : ¬ bad → p = pure ()) :
    ThrowsIff (p >>= k) (bad ∨ bad') := by
  by_cases hb : bad
  · exact ⟨fun _ h => (hp.1 hb h).bind k, fun hn => absurd (Or.inl hb) hn⟩
  · have e : (p >>= k) = k () := by rw [ok hb]; exact sched_pure_bind () k
    rw [e]
    exact hk.congr (or_iff_right hb)

end ThrowsIff

/-! ## Undefined behaviour in one iteration -/

/-- Iteration `i` can run first; if that fails, so does this schedule. -/
theorem parFor_fails_alone {n i : Nat} {body : Nat → Task α Unit} {h : Heap α} {e : Err}
    (hi : i < n) (hf : (body i).run h = .error e) : parFor n body h (.error e) := by
  suffices H : ∀ (t : Task α Unit) (ts : Nat → Task α Unit) (g : Heap α), ts i = t →
      t.run g = .error e → ∃ c : Pool α, Relation.ReflTransGen (Step n) ⟨ts, g⟩ c ∧
        (c.todo i).FailsIn c.mem e by
    obtain ⟨c, run, fin⟩ := H (body i) body h rfl hf
    exact ⟨c, run, Or.inr (Or.inl ⟨i, e, hi, fin, rfl⟩)⟩
  intro t
  induction t with
  | done b => intro ts g _ ht; cases ht
  | fail e' =>
    intro ts g et ht
    refine ⟨⟨ts, g⟩, .refl, ?_⟩
    simp only [et, Task.FailsIn]
    cases ht
    rfl
  | load a k ih =>
    intro ts g et ht
    change Prog.seq (Prog.load a) (fun v => (k v).run) g = _ at ht
    unfold Prog.seq Prog.load at ht
    cases hv : g a with
    | none =>
      rw [hv] at ht
      cases ht
      refine ⟨⟨ts, g⟩, .refl, ?_⟩
      simp only [et, Task.FailsIn]
      exact ⟨hv, trivial⟩
    | some v =>
      rw [hv] at ht
      obtain ⟨c, run, fin⟩ := ih v (Function.update ts i (k v)) g (Function.update_self ..) ht
      exact ⟨c, .head (.load hi et hv) run, fin⟩
  | store a v k ih =>
    intro ts g et ht
    change Prog.seq (Prog.store a v) (fun _ => k.run) g = _ at ht
    unfold Prog.seq Prog.store at ht
    cases hv : g a with
    | none =>
      rw [hv] at ht
      cases ht
      refine ⟨⟨ts, g⟩, .refl, ?_⟩
      simp only [et, Task.FailsIn]
      exact ⟨hv, trivial⟩
    | some w =>
      rw [hv] at ht
      obtain ⟨c, run, fin⟩ := ih (Function.update ts i k) _ (Function.update_self ..) ht
      exact ⟨c, .head (.store hi et hv) run, fin⟩

/-- The only error is undefined behaviour. -/
def OkOrUb (p : Prog α β) : Prop := ∀ h e, p h = .error e → e = .ub

theorem OkOrUb.bind {p : Prog α β} {f : β → Prog α γ} (hp : OkOrUb p) (hf : ∀ b, OkOrUb (f b)) :
    OkOrUb (p >>= f) := by
  intro h e he
  change Prog.seq p f h = _ at he
  unfold Prog.seq at he
  cases hq : p h with
  | error e' =>
    rw [hq] at he
    cases he
    exact hp h _ hq
  | ok r =>
    rw [hq] at he
    exact hf _ _ _ he

theorem OkOrUb.get (A : Mat) (i j : Nat) : OkOrUb (A.get i j : Prog α α) := by
  intro h e he
  unfold Mat.get at he
  by_cases q : i < A.rows ∧ j < A.cols
  · rw [if_pos q] at he
    unfold Prog.load at he
    split at he <;> cases he
    rfl
  · rw [if_neg q] at he
    cases he
    rfl

theorem OkOrUb.set (A : Mat) (i j : Nat) (v : α) : OkOrUb (A.set i j v) := by
  intro h e he
  unfold Mat.set at he
  by_cases q : i < A.rows ∧ j < A.cols
  · rw [if_pos q] at he
    unfold Prog.store at he
    split at he <;> cases he
    rfl
  · rw [if_neg q] at he
    cases he
    rfl

/-- A first part that ends or is undefined behaviour, then certain undefined behaviour. -/
theorem OkOrUb.then_ub {p : Prog α β} {f : β → Prog α γ} (hp : OkOrUb p)
    (hf : ∀ b h, f b h = .error .ub) (h : Heap α) : (p >>= f) h = .error .ub := by
  change Prog.seq p f h = _
  unfold Prog.seq
  cases hq : p h with
  | error e' => rw [hp h _ hq]
  | ok r => exact hf _ _

/-- A loop with one iteration that is undefined behaviour. -/
theorem forEach_ub {l : List ι} {body : ι → Prog α Unit} {i : ι} (hi : i ∈ l)
    (ok : ∀ k, OkOrUb (body k)) (bad : ∀ h, body i h = .error .ub) (h : Heap α) :
    forEach l body h = .error .ub := by
  induction l generalizing h with
  | nil => cases hi
  | cons k l ih =>
    rcases List.mem_cons.1 hi with rfl | hm
    · change Prog.seq _ _ h = _
      unfold Prog.seq
      rw [bad h]
    · exact (ok k).then_ub (fun _ g => ih hm g) h

end StdBLAS

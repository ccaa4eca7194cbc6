import Verif.Spec.KokkosHost

/-!
# Facts about programs of the host
-/

namespace StdBLAS
variable {α β γ δ : Type}

/-! ## The monad laws -/

theorem Sched.bind_iff (p : Sched α β) (f : β → Sched α γ) (h : Heap α)
    (r : Except Err (γ × Heap α)) :
    (p >>= f) h r ↔ (∃ e, p h (.error e) ∧ r = .error e) ∨ ∃ b h', p h (.ok (b, h')) ∧ f b h' r :=
  Iff.rfl

theorem Sched.pure_iff (b : β) (h : Heap α) (r : Except Err (β × Heap α)) :
    (pure b : Sched α β) h r ↔ r = .ok (b, h) := eq_comm

theorem Sched.pure_bind' (b : β) (f : β → Sched α γ) : (pure b >>= f) = f b := by
  funext h r
  refine propext ⟨?_, fun hr => .inr ⟨b, h, rfl, hr⟩⟩
  rintro (⟨e, he, _⟩ | ⟨b', h', hb, hr⟩)
  · cases he
  · cases hb
    exact hr

theorem Sched.bind_pure' (p : Sched α β) : (p >>= fun b => pure b) = p := by
  funext h r
  refine propext ⟨?_, fun hr => ?_⟩
  · rintro (⟨e, he, rfl⟩ | ⟨b, h', hb, hr⟩)
    · exact he
    · cases hr
      exact hb
  · rcases r with e | ⟨b, h'⟩
    · exact .inl ⟨e, hr, rfl⟩
    · exact .inr ⟨b, h', hr, rfl⟩

theorem Sched.bind_assoc' (p : Sched α β) (f : β → Sched α γ) (g : γ → Sched α δ) :
    ((p >>= f) >>= g) = (p >>= fun b => f b >>= g) := by
  funext h r
  refine propext ⟨?_, ?_⟩
  · rintro (⟨e, ⟨e', he, h'⟩ | ⟨b, h', hb, he⟩, rfl⟩ | ⟨c, h2, ⟨e, he, h'⟩ | ⟨b, h', hb, hc⟩, hr⟩)
    · cases h'
      exact .inl ⟨_, he, rfl⟩
    · exact .inr ⟨b, h', hb, .inl ⟨e, he, rfl⟩⟩
    · cases h'
    · exact .inr ⟨b, h', hb, .inr ⟨c, h2, hc, hr⟩⟩
  · rintro (⟨e, he, rfl⟩ | ⟨b, h', hb, ⟨e, he, rfl⟩ | ⟨c, h2, hc, hr⟩⟩)
    · exact .inl ⟨e, .inl ⟨e, he, rfl⟩, rfl⟩
    · exact .inl ⟨e, .inr ⟨b, h', hb, he⟩, rfl⟩
    · exact .inr ⟨c, h2, .inr ⟨b, h', hb, hc⟩, hr⟩

theorem Sched.throw_bind (f : β → Sched α γ) : (Sched.throw >>= f) = Sched.throw := by
  funext h r
  refine propext ⟨?_, fun hr => .inl ⟨.exn, rfl, hr.symm⟩⟩
  rintro (⟨e, he, rfl⟩ | ⟨b, h', hb, hr⟩)
  · cases he
    rfl
  · cases hb

namespace Host

theorem bind_eq (p : Host α β) (f : β → Host α γ) : (p >>= f) = p.bind f := rfl

theorem pure_eq (b : β) : (pure b : Host α β) = .ret b := rfl

theorem bind_assoc' (p : Host α β) (f : β → Host α γ) (g : γ → Host α δ) :
    ((p >>= f) >>= g) = (p >>= fun b => f b >>= g) := by
  simp only [bind_eq]
  induction p with
  | ret b => rfl
  | throw => rfl
  | submit k n ih => exact congrArg (Host.submit k) ih
  | fence n ih => exact congrArg Host.fence ih
  | wait k n ih => exact congrArg (Host.wait k) (funext fun c => ih c)
  | «local» p n ih => exact congrArg (Host.local p) (funext fun c => ih c)

theorem bind_ret (p : Host α β) : (p >>= fun b => Host.ret b) = p := by
  simp only [bind_eq]
  induction p with
  | ret b => rfl
  | throw => rfl
  | submit k n ih => exact congrArg (Host.submit k) ih
  | fence n ih => exact congrArg Host.fence ih
  | wait k n ih => exact congrArg (Host.wait k) (funext fun c => ih c)
  | «local» p n ih => exact congrArg (Host.local p) (funext fun c => ih c)

/-! ## The synchronous program -/

theorem sync_bind (p : Host α β) (f : β → Host α γ) :
    (p >>= f).sync = (p.sync >>= fun b => (f b).sync) := by
  simp only [bind_eq]
  induction p with
  | ret b => exact (Sched.pure_bind' b fun b => (f b).sync).symm
  | throw => exact (Sched.throw_bind _).symm
  | submit k n ih =>
    simp only [bind, sync, Sched.bind_assoc', ih]
  | fence n ih => simpa only [bind, sync] using ih
  | wait k n ih =>
    simp only [bind, sync, Sched.bind_assoc', ih]
  | «local» p n ih =>
    simp only [bind, sync, Sched.bind_assoc', ih]

theorem sync_pure (b : β) : (pure b : Host α β).sync = pure b := rfl

theorem sync_launch (k : Sched α Unit) : (launch k).sync = k := Sched.bind_pure' k

theorem sync_fenced : (fenced : Host α Unit).sync = pure () := rfl

theorem sync_await (k : Sched α β) : (await k).sync = k := Sched.bind_pure' k

theorem sync_here (p : Prog α β) : (here p).sync = Sched.lift p := Sched.bind_pure' _

theorem sync_require (c : Prop) [Decidable c] :
    (Host.require c : Host α Unit).sync = StdBLAS.require c := by
  unfold Host.require StdBLAS.require
  split <;> rfl

theorem sync_forEach {ι : Type} (l : List ι) (body : ι → Host α Unit) :
    (Host.forEach l body).sync = Sched.forEach l fun i => (body i).sync := by
  induction l with
  | nil => rfl
  | cons i l ih => simp only [Host.forEach, Sched.forEach, sync_bind, ih]

theorem sync_into (c : Host α γ) (f : γ → α) (out : Nat) :
    (c.into f out).sync = c.sync.into f out := by
  simp only [Host.into, Sched.into, sync_bind, sync_here]

/-! ## Calls that are finished when they return -/

theorem finishesAs_pure (b : β) : (pure b : Host α β).FinishesAs (pure b) := by
  intro γ rest h r
  constructor
  · intro hr
    exact .inr ⟨b, h, rfl, hr⟩
  · rintro (⟨e, he, _⟩ | ⟨b', h', hb, hr⟩)
    · cases he
    · cases hb
      exact hr

theorem finishesAs_throw : (Host.throw : Host α β).FinishesAs Sched.throw := by
  intro γ rest h r
  constructor
  · intro hr
    cases hr
    exact .inl ⟨_, rfl, rfl⟩
  · rintro (⟨e, he, rfl⟩ | ⟨b', h', hb, hr⟩)
    · cases he
      exact .throw
    · cases hb

theorem FinishesAs.bind {p : Host α β} {s : Sched α β} {f : β → Host α γ} {g : β → Sched α γ}
    (hp : p.FinishesAs s) (hf : ∀ b, (f b).FinishesAs (g b)) :
    (p >>= f).FinishesAs (s >>= g) := by
  intro δ rest h r
  rw [bind_assoc', hp]
  constructor
  · rintro (⟨e, he, rfl⟩ | ⟨b, h', hb, hr⟩)
    · exact .inl ⟨e, .inl ⟨e, he, rfl⟩, rfl⟩
    · rcases (hf b _ _ _ _).1 hr with ⟨e, he, rfl⟩ | ⟨c, h2, hc, hr⟩
      · exact .inl ⟨e, .inr ⟨b, h', hb, he⟩, rfl⟩
      · exact .inr ⟨c, h2, .inr ⟨b, h', hb, hc⟩, hr⟩
  · rintro (⟨e, ⟨e', he, h'⟩ | ⟨b, h', hb, he⟩, rfl⟩ | ⟨c, h2, ⟨e, he, h'⟩ | ⟨b, h', hb, hc⟩, hr⟩)
    · cases h'
      exact .inl ⟨_, he, rfl⟩
    · exact .inr ⟨b, h', hb, (hf b _ _ _ _).2 (.inl ⟨e, he, rfl⟩)⟩
    · cases h'
    · exact .inr ⟨b, h', hb, (hf b _ _ _ _).2 (.inr ⟨c, h2, hc, hr⟩)⟩

theorem finishesAs_await (k : Sched α β) : (await k).FinishesAs k := by
  intro γ rest h r
  constructor
  · intro hr
    cases hr with
    | wait hk hn => exact .inr ⟨_, _, hk, hn⟩
    | waitError hk => exact .inl ⟨_, hk, rfl⟩
  · rintro (⟨e, he, rfl⟩ | ⟨b, h', hb, hr⟩)
    · exact .waitError he
    · exact .wait hb hr

theorem finishesAs_here (p : Prog α β) : (here p).FinishesAs (Sched.lift p) := by
  intro γ rest h r
  constructor
  · intro hr
    cases hr with
    | «local» hk hn => exact .inr ⟨_, _, hk, hn⟩
    | localError hk => exact .inl ⟨_, hk, rfl⟩
  · rintro (⟨e, he, rfl⟩ | ⟨b, h', hb, hr⟩)
    · exact .localError he
    · exact .local hb hr

/-- A kernel followed by a fence. -/
theorem finishesAs_launch_fenced (k : Sched α Unit) :
    (launch k >>= fun _ => fenced).FinishesAs k := by
  intro γ rest h r
  constructor
  · intro hr
    cases hr with
    | submit hr =>
      cases hr with
      | device hk hn =>
        cases hn with
        | fence hn => exact .inr ⟨_, _, hk, hn⟩
      | deviceError hk => exact .inl ⟨_, hk, rfl⟩
  · rintro (⟨e, he, rfl⟩ | ⟨b, h', hb, hr⟩)
    · exact .submit (.deviceError he)
    · exact .submit (.device hb (.fence hr))

theorem finishesAs_require (c : Prop) [Decidable c] :
    (Host.require c : Host α Unit).FinishesAs (StdBLAS.require c) := by
  unfold Host.require StdBLAS.require
  split
  · exact finishesAs_pure ()
  · exact finishesAs_throw

theorem finishesAs_into {c : Host α γ} {s : Sched α γ} (hc : c.FinishesAs s) (f : γ → α)
    (out : Nat) : (c.into f out).FinishesAs (s.into f out) :=
  hc.bind fun _ => finishesAs_here _

/-! ## Programs that end with a fence -/

/-- All the waiting kernels run. -/
def drain : Queue α → Sched α Unit
  | [] => pure ()
  | k :: q => k >>= fun _ => drain q

theorem drain_append (q q' : Queue α) :
    drain (q ++ q') = (drain q >>= fun _ => drain q') := by
  induction q with
  | nil => exact (Sched.pure_bind' () fun _ => drain q').symm
  | cons k q ih => simp only [List.cons_append, drain, ih, Sched.bind_assoc']

theorem drain_single (k : Sched α Unit) : drain [k] = k := Sched.bind_pure' k

/-- Code of the host runs only after waiting; `e` says whether nothing is waiting at first. -/
def InOrder : Bool → Host α β → Prop
  | _, .ret _ => True
  | _, .throw => True
  | _, .submit _ n => n.InOrder false
  | _, .fence n => n.InOrder true
  | _, .wait _ n => ∀ c, (n c).InOrder true
  | e, .local _ n => e = true ∧ ∀ c, (n c).InOrder true

theorem InOrder.weaken {p : Host α β} (hp : p.InOrder false) (e : Bool) : p.InOrder e := by
  cases p <;> simp_all [InOrder]

theorem InOrder.bind {p : Host α β} {f : β → Host α γ} {e : Bool} (hp : p.InOrder e)
    (hf : ∀ b, (f b).InOrder false) : (p >>= f).InOrder e := by
  simp only [bind_eq]
  induction p generalizing e with
  | ret b => exact (hf b).weaken e
  | throw => trivial
  | submit k n ih => exact ih hp
  | fence n ih => exact ih hp
  | wait k n ih => exact fun c => ih c (hp c)
  | «local» p n ih => exact ⟨hp.1, fun c => ih c (hp.2 c)⟩

/-- `bind` when the first part waits at its end. -/
theorem InOrder.wait_bind (k : Sched α β) {f : β → Host α γ} (hf : ∀ b, (f b).InOrder true) (e : Bool) :
    (await k >>= f).InOrder e := hf

theorem runs_drain {p : Host α β} {q : Queue α} {h h' : Heap α}
    {r : Except Err (β × Queue α × Heap α)} (hq : drain q h (.ok ((), h'))) (q' : Queue α)
    (hp : Runs p q' h' r) : Runs p (q ++ q') h r := by
  induction q generalizing h with
  | nil =>
    cases hq
    exact hp
  | cons k q ih =>
    rcases hq with ⟨e, _, he⟩ | ⟨_, h1, hk, hq⟩
    · cases he
    · exact .device hk (ih hq)

theorem runs_drain_error {p : Host α β} {q : Queue α} {h : Heap α} {e : Err}
    (hq : drain q h (.error e)) (q' : Queue α) : Runs p (q ++ q') h (.error e) := by
  induction q generalizing h with
  | nil => cases hq
  | cons k q ih =>
    rcases hq with ⟨e', hk, he⟩ | ⟨_, h1, hk, hq⟩
    · cases he
      exact .deviceError hk
    · exact .device hk (ih hq)

/-- The possible next moves of the host: some of the waiting kernels run, then the host moves. -/
inductive Moves : Host α β → Queue α → Heap α → Except Err (β × Queue α × Heap α) → Prop where
  | ret {b : β} {q : Queue α} {h : Heap α} : Moves (.ret b) q h (.ok (b, q, h))
  | throw {q : Queue α} {h : Heap α} : Moves .throw q h (.error .exn)
  | submit {k : Sched α Unit} {n : Host α β} {q : Queue α} {h : Heap α}
      {r : Except Err (β × Queue α × Heap α)} :
      Runs n (q ++ [k]) h r → Moves (.submit k n) q h r
  | fence {n : Host α β} {h : Heap α} {r : Except Err (β × Queue α × Heap α)} :
      Runs n [] h r → Moves (.fence n) [] h r
  | wait {γ : Type} {k : Sched α γ} {n : γ → Host α β} {h h' : Heap α} {c : γ}
      {r : Except Err (β × Queue α × Heap α)} :
      k h (.ok (c, h')) → Runs (n c) [] h' r → Moves (.wait k n) [] h r
  | waitError {γ : Type} {k : Sched α γ} {n : γ → Host α β} {h : Heap α} {e : Err} :
      k h (.error e) → Moves (.wait k n) [] h (.error e)
  | local {γ : Type} {p : Prog α γ} {n : γ → Host α β} {q : Queue α} {h h' : Heap α} {c : γ}
      {r : Except Err (β × Queue α × Heap α)} :
      p h = .ok (c, h') → Runs (n c) q h' r → Moves (.local p n) q h r
  | localError {γ : Type} {p : Prog α γ} {n : γ → Host α β} {q : Queue α} {h : Heap α} {e : Err} :
      p h = .error e → Moves (.local p n) q h (.error e)

/-- Before the host moves, some of the waiting kernels run, or one of them fails. -/
theorem Runs.moves {p : Host α β} {q : Queue α} {h : Heap α}
    {r : Except Err (β × Queue α × Heap α)} (hr : Runs p q h r) :
    (∃ q₁ q₂ h', q = q₁ ++ q₂ ∧ drain q₁ h (.ok ((), h')) ∧ Moves p q₂ h' r) ∨
    ∃ q₁ q₂ e, q = q₁ ++ q₂ ∧ drain q₁ h (.error e) ∧ r = .error e := by
  induction hr with
  | ret => exact .inl ⟨[], _, _, rfl, rfl, .ret⟩
  | throw => exact .inl ⟨[], _, _, rfl, rfl, .throw⟩
  | submit hn => exact .inl ⟨[], _, _, rfl, rfl, .submit hn⟩
  | fence hn => exact .inl ⟨[], _, _, rfl, rfl, .fence hn⟩
  | wait hk hn => exact .inl ⟨[], _, _, rfl, rfl, .wait hk hn⟩
  | waitError hk => exact .inl ⟨[], _, _, rfl, rfl, .waitError hk⟩
  | «local» hk hn => exact .inl ⟨[], _, _, rfl, rfl, .local hk hn⟩
  | localError hk => exact .inl ⟨[], _, _, rfl, rfl, .localError hk⟩
  | @device p k q h h' r hk hn ih =>
    rcases ih with ⟨q₁, q₂, h2, rfl, hd, hm⟩ | ⟨q₁, q₂, e, rfl, hd, rfl⟩
    · exact .inl ⟨k :: q₁, q₂, h2, rfl, .inr ⟨(), h', hk, hd⟩, hm⟩
    · exact .inr ⟨k :: q₁, q₂, e, rfl, .inr ⟨(), h', hk, hd⟩, rfl⟩
  | @deviceError p k q h e hk =>
    exact .inr ⟨[k], q, e, rfl, .inl ⟨e, hk, rfl⟩, rfl⟩

/-- The program begins by waiting for all kernels. -/
def WaitsFirst (g : Host α β) : Prop :=
  ∀ (q : Queue α) (h : Heap α) (r : Except Err (β × Queue α × Heap α)), Runs g q h r ↔
    (∃ e, drain q h (.error e) ∧ r = .error e) ∨ ∃ h', drain q h (.ok ((), h')) ∧ Runs g [] h' r

theorem drain_append_error {q q' : Queue α} {h : Heap α} {e : Err} (hq : drain q h (.error e)) :
    drain (q ++ q') h (.error e) := by
  rw [drain_append]
  exact .inl ⟨e, hq, rfl⟩

theorem waitsFirst_of {g : Host α β} (hg : ∀ q h r, Moves g q h r → q = []) : g.WaitsFirst := by
  intro q h r
  constructor
  · intro hr
    rcases hr.moves with ⟨q₁, q₂, h2, rfl, hd, hm⟩ | ⟨q₁, q₂, e, rfl, hd, rfl⟩
    · obtain rfl := hg _ _ _ hm
      refine .inr ⟨h2, by rwa [List.append_nil], ?_⟩
      cases hm with
      | ret => exact .ret
      | throw => exact .throw
      | submit hn => exact .submit hn
      | fence hn => exact .fence hn
      | wait hk hn => exact .wait hk hn
      | waitError hk => exact .waitError hk
      | «local» hk hn => exact .local hk hn
      | localError hk => exact .localError hk
    · exact .inl ⟨e, drain_append_error hd, rfl⟩
  · rintro (⟨e, hd, rfl⟩ | ⟨h', hd, hr⟩)
    · have := runs_drain_error (p := g) hd []
      rwa [List.append_nil] at this
    · have := runs_drain hd [] hr
      rwa [List.append_nil] at this

theorem waitsFirst_fence (g : Host α β) : (Host.fence g).WaitsFirst :=
  waitsFirst_of fun _ _ _ hm => by cases hm; rfl

theorem waitsFirst_wait (k : Sched α γ) (g : γ → Host α β) : (Host.wait k g).WaitsFirst :=
  waitsFirst_of fun _ _ _ hm => by cases hm <;> rfl

/-- No exception. -/
def NoThrow : Host α β → Prop
  | .ret _ => True
  | .throw => False
  | .submit _ n => n.NoThrow
  | .fence n => n.NoThrow
  | .wait _ n => ∀ c, (n c).NoThrow
  | .local _ n => ∀ c, (n c).NoThrow

theorem NoThrow.bind {p : Host α β} {f : β → Host α γ} (hp : p.NoThrow)
    (hf : ∀ b, (f b).NoThrow) : (p >>= f).NoThrow := by
  simp only [bind_eq]
  induction p with
  | ret b => exact hf b
  | throw => exact hp
  | submit k n ih => exact ih hp
  | fence n ih => exact ih hp
  | wait k n ih => exact fun c => ih c (hp c)
  | «local» p n ih => exact fun c => ih c (hp c)

/-- What `Runs` says of a program up to a point where it waits. -/
def Upto (s : Sched α β) (g : β → Host α γ) (h : Heap α) (r : Except Err (γ × Queue α × Heap α)) :
    Prop :=
  (∃ e, s h (.error e) ∧ r = .error e) ∨ ∃ b h', s h (.ok (b, h')) ∧ Runs (g b) [] h' r

theorem upto_bind {s : Sched α δ} {t : δ → Sched α β} {g : β → Host α γ} {h : Heap α}
    {r : Except Err (γ × Queue α × Heap α)} :
    Upto (s >>= t) g h r ↔
      (∃ e, s h (.error e) ∧ r = .error e) ∨ ∃ d h', s h (.ok (d, h')) ∧ Upto (t d) g h' r := by
  constructor
  · rintro (⟨e, ⟨e', he, h'⟩ | ⟨b, h', hb, he⟩, rfl⟩ | ⟨c, h2, ⟨e, he, h'⟩ | ⟨b, h', hb, hc⟩, hr⟩)
    · cases h'
      exact .inl ⟨_, he, rfl⟩
    · exact .inr ⟨b, h', hb, .inl ⟨e, he, rfl⟩⟩
    · cases h'
    · exact .inr ⟨b, h', hb, .inr ⟨c, h2, hc, hr⟩⟩
  · rintro (⟨e, he, rfl⟩ | ⟨b, h', hb, ⟨e, he, rfl⟩ | ⟨c, h2, hc, hr⟩⟩)
    · exact .inl ⟨e, .inl ⟨e, he, rfl⟩, rfl⟩
    · exact .inl ⟨e, .inr ⟨b, h', hb, he⟩, rfl⟩
    · exact .inr ⟨c, h2, .inr ⟨b, h', hb, hc⟩, hr⟩

/-- Waiting at the end of a program is as good as waiting for every kernel. -/
theorem runs_upto {p : Host α β} {e : Bool} (hp : p.InOrder e) (hn : p.NoThrow) {q : Queue α}
    (he : e = true → q = []) {g : β → Host α γ} (hg : ∀ b, (g b).WaitsFirst) {h : Heap α}
    {r : Except Err (γ × Queue α × Heap α)} :
    Runs (p >>= g) q h r ↔ Upto (drain q >>= fun _ => p.sync) g h r := by
  rw [upto_bind]
  induction p generalizing e q h with
  | ret b =>
    rw [show (Host.ret b >>= g) = g b from rfl, hg]
    refine or_congr Iff.rfl ⟨?_, ?_⟩
    · rintro ⟨h', hd, hr⟩
      exact ⟨(), h', hd, .inr ⟨b, h', rfl, hr⟩⟩
    · rintro ⟨_, h', hd, ⟨e, he, _⟩ | ⟨b', h2, hb, hr⟩⟩
      · cases he
      · cases hb
        exact ⟨h', hd, hr⟩
  | throw => exact hn.elim
  | submit k n ih =>
    have ih' := fun (q : Queue α) (h : Heap α) =>
      ih (h := h) hp hn (q := q ++ [k]) (fun h => by cases h)
    constructor
    · intro hr
      rcases hr.moves with ⟨q₁, q₂, h2, rfl, hd, hm⟩ | ⟨q₁, q₂, e, rfl, hd, rfl⟩
      · cases hm with
        | submit hm =>
          have h1 := (ih' q₂ h2).1 hm
          rw [← upto_bind, drain_append, drain_single, Sched.bind_assoc', upto_bind] at h1
          rw [← upto_bind, drain_append, Sched.bind_assoc', upto_bind]
          refine .inr ⟨(), h2, hd, ?_⟩
          rw [upto_bind]
          exact h1
      · exact .inl ⟨e, drain_append_error hd, rfl⟩
    · intro hr
      refine .submit ((ih' q h).2 ?_)
      rw [← upto_bind, drain_append, drain_single, Sched.bind_assoc', upto_bind]
      exact hr
  | fence n ih =>
    rw [show (Host.fence n >>= g) = Host.fence (n >>= g) from rfl, waitsFirst_fence]
    refine or_congr Iff.rfl ⟨?_, ?_⟩
    · rintro ⟨h', hd, hr⟩
      cases hr with
      | fence hr =>
        have := (ih hp hn (q := []) (fun _ => rfl)).1 hr
        rcases this with ⟨_, h3, _⟩ | ⟨_, _, h3, h4⟩
        · cases h3
        · cases h3
          exact ⟨(), _, hd, h4⟩
    · rintro ⟨_, h', hd, hr⟩
      exact ⟨h', hd, .fence ((ih hp hn (q := []) (fun _ => rfl)).2 (.inr ⟨(), _, rfl, hr⟩))⟩
  | wait k n ih =>
    rw [show (Host.wait k n >>= g) = Host.wait k fun c => n c >>= g from rfl, waitsFirst_wait]
    refine or_congr Iff.rfl ⟨?_, ?_⟩
    · rintro ⟨h', hd, hr⟩
      refine ⟨(), h', hd, upto_bind.2 ?_⟩
      cases hr with
      | wait hk hr =>
        have := (ih _ (hp _) (hn _) (q := []) (fun _ => rfl)).1 hr
        rcases this with ⟨_, h3, _⟩ | ⟨_, _, h3, h4⟩
        · cases h3
        · cases h3
          exact .inr ⟨_, _, hk, h4⟩
      | waitError hk => exact .inl ⟨_, hk, rfl⟩
    · rintro ⟨_, h', hd, hr⟩
      refine ⟨h', hd, ?_⟩
      rcases upto_bind.1 hr with ⟨e, hk, rfl⟩ | ⟨c, h2, hk, hr⟩
      · exact .waitError hk
      · exact .wait hk ((ih c (hp c) (hn c) (q := []) (fun _ => rfl)).2 (.inr ⟨(), _, rfl, hr⟩))
  | «local» p n ih =>
    obtain rfl := he hp.1
    constructor
    · intro hr
      refine .inr ⟨(), h, rfl, upto_bind.2 ?_⟩
      cases hr with
      | «local» hk hr =>
        have := (ih _ (hp.2 _) (hn _) (q := []) (fun _ => rfl)).1 hr
        rcases this with ⟨_, h3, _⟩ | ⟨_, _, h3, h4⟩
        · cases h3
        · cases h3
          exact .inr ⟨_, _, hk, h4⟩
      | localError hk => exact .inl ⟨_, hk, rfl⟩
    · rintro (⟨_, h3, _⟩ | ⟨_, h', hd, hr⟩)
      · cases h3
      · cases hd
        rcases upto_bind.1 hr with ⟨e, hk, rfl⟩ | ⟨c, h2, hk, hr⟩
        · exact .localError hk
        · exact .local hk ((ih c (hp.2 c) (hn c) (q := []) (fun _ => rfl)).2 (.inr ⟨(), _, rfl, hr⟩))

/-- A program in order followed by a fence is finished. -/
theorem finishesAs_fenced {p : Host α Unit} {e : Bool} (hp : p.InOrder e) (hn : p.NoThrow) :
    (p >>= fun _ => fenced).FinishesAs p.sync := by
  intro γ rest h r
  rw [bind_assoc', runs_upto hp hn (q := []) (fun _ => rfl) (g := fun _ => fenced >>= rest)
    (fun b => waitsFirst_fence (rest b))]
  rw [show (drain ([] : Queue α) >>= fun _ => p.sync) = p.sync from Sched.pure_bind' _ _]
  refine or_congr Iff.rfl ⟨?_, ?_⟩
  · rintro ⟨b, h', hb, hr⟩
    cases hr with
    | fence hr => exact ⟨b, h', hb, hr⟩
  · rintro ⟨b, h', hb, hr⟩
    exact ⟨b, h', hb, .fence hr⟩

/-- A program in order followed by a reduction. -/
theorem finishesAs_await_after {p : Host α Unit} {e : Bool} (hp : p.InOrder e) (hn : p.NoThrow)
    (k : Sched α β) : (p >>= fun _ => await k).FinishesAs (p.sync >>= fun _ => k) := by
  intro γ rest h r
  rw [bind_assoc', runs_upto hp hn (q := []) (fun _ => rfl) (g := fun _ => await k >>= rest)
    (fun _ => waitsFirst_wait k rest)]
  rw [show (drain ([] : Queue α) >>= fun _ => p.sync) = p.sync from Sched.pure_bind' _ _]
  change _ ↔ Upto (p.sync >>= fun _ => k) rest h r
  rw [upto_bind]
  refine or_congr Iff.rfl ?_
  simp only [finishesAs_await k _ rest, Upto]

/-! ## Exceptions come first -/

/-- An exception at once, or none. -/
def ThrowsFirst (p : Host α β) : Prop := p = .throw ∨ p.NoThrow

theorem throwsFirst_require {c : Prop} [Decidable c] {p : Host α β} (hp : p.ThrowsFirst) :
    (Host.require c >>= fun _ => p).ThrowsFirst := by
  unfold Host.require
  split
  · exact hp
  · exact .inl rfl

theorem ThrowsFirst.bind {p : Host α β} {f : β → Host α γ} (hp : p.ThrowsFirst)
    (hf : ∀ b, (f b).NoThrow) : (p >>= f).ThrowsFirst := by
  rcases hp with rfl | hp
  · exact .inl rfl
  · exact .inr (hp.bind hf)

end Host

end StdBLAS

import Verif.Spec.KokkosTransfer
import Verif.Lemmas.Moved

/-!
# Parallel loops and reductions respect relations

If the bodies of two loops make corresponding accesses, every interleaving of one is an interleaving of the
other.
-/

namespace StdBLAS
variable {α β γ δ : Type} {rel : α → β → Prop} {p : Nat → Nat → Prop}

/-- The two relations the other way round. -/
def swapRel {γ δ : Type} (r : γ → δ → Prop) : δ → γ → Prop := fun b a => r a b

theorem OneToOne.swap (hp : OneToOne p) : OneToOne (swapRel p) := fun ha hb => (hp ha hb).symm

theorem optionRel_swap {r : α → β → Prop} {a : Option α} {b : Option β} (h : Option.Rel r a b) :
    Option.Rel (swapRel r) b a := by
  cases h with
  | some h => exact .some h
  | none => exact .none

theorem Heap.Linked.swap {h : Heap α} {k : Heap β} (H : Heap.Linked rel p h k) :
    Heap.Linked (swapRel rel) (swapRel p) k h := fun b a q => optionRel_swap (H a b q)

theorem Heap.Linked.update (hp : OneToOne p) {h : Heap α} {k : Heap β} (H : Heap.Linked rel p h k)
    {a b : Nat} {v : α} {w : β} (q : p a b) (hv : rel v w) :
    Heap.Linked rel p (Function.update h a (some v)) (Function.update k b (some w)) := by
  intro a' b' q'
  by_cases ha : a' = a
  · have hb := (hp q' q).1 ha
    subst ha hb
    rw [Function.update_self, Function.update_self]
    exact .some hv
  · have hb : b' ≠ b := fun hb => ha ((hp q' q).2 hb)
    rw [Function.update_of_ne ha, Function.update_of_ne hb]
    exact H a' b' q'

theorem LinkedOutcome.swap {res : γ → δ → Prop} {r : Except Err (γ × Heap α)}
    {s : Except Err (δ × Heap β)} (H : LinkedOutcome rel p res r s) :
    LinkedOutcome (swapRel rel) (swapRel p) (swapRel res) s r := by
  cases H with
  | error e => exact .error e
  | ok a b h k hab hk => exact .ok b a k h hab hk.swap

theorem LinkedOutcome.unswap {res : γ → δ → Prop} {r : Except Err (γ × Heap α)}
    {s : Except Err (δ × Heap β)}
    (H : LinkedOutcome (swapRel rel) (swapRel p) (swapRel res) s r) : LinkedOutcome rel p res r s := by
  cases H with
  | error e => exact .error e
  | ok a b h k hab hk => exact .ok b a k h hab fun a b q => optionRel_swap (hk b a q)

/-! ## Tasks -/

/-- Two tasks make corresponding accesses. -/
inductive Task.Linked (rel : α → β → Prop) (p : Nat → Nat → Prop) (res : γ → δ → Prop) :
    Task α γ → Task β δ → Prop
  | done {a : γ} {b : δ} : res a b → Linked rel p res (.done a) (.done b)
  | fail {e : Err} : Linked rel p res (.fail e) (.fail e)
  | load {a b : Nat} {k : α → Task α γ} {k' : β → Task β δ} : p a b →
      (∀ v w, rel v w → Linked rel p res (k v) (k' w)) → Linked rel p res (.load a k) (.load b k')
  | store {a b : Nat} {v : α} {w : β} {k : Task α γ} {k' : Task β δ} : p a b → rel v w →
      Linked rel p res k k' → Linked rel p res (.store a v k) (.store b w k')

namespace Task.Linked
variable {res : γ → δ → Prop}

theorem swap {t : Task α γ} {t' : Task β δ} (H : Task.Linked rel p res t t') :
    Task.Linked (swapRel rel) (swapRel p) (swapRel res) t' t := by
  induction H with
  | done h => exact .done h
  | fail => exact .fail
  | load q _ ih => exact .load q fun v w h => ih w v h
  | store q h _ ih => exact .store q h ih

theorem bind {γ' δ' : Type} {res' : γ' → δ' → Prop} {t : Task α γ} {t' : Task β δ}
    {f : γ → Task α γ'} {f' : δ → Task β δ'} (H : Task.Linked rel p res t t')
    (hf : ∀ a b, res a b → Task.Linked rel p res' (f a) (f' b)) :
    Task.Linked rel p res' (t >>= f) (t' >>= f') := by
  induction H with
  | done h => exact hf _ _ h
  | fail => exact .fail
  | load q _ ih => exact .load q ih
  | store q h _ ih => exact .store q h ih

theorem pure {a : γ} {b : δ} (h : res a b) :
    Task.Linked rel p res (Pure.pure a : Task α γ) (Pure.pure b : Task β δ) := .done h

theorem forEach {ι : Type} (l : List ι) {f : ι → Task α Unit} {f' : ι → Task β Unit}
    (hf : ∀ i, Task.Linked rel p Eq (f i) (f' i)) :
    Task.Linked rel p Eq (Task.forEach l f) (Task.forEach l f') := by
  induction l with
  | nil => exact .done rfl
  | cons i l ih => exact (hf i).bind fun _ _ _ => ih

theorem forUp {lo hi hi' : Nat} (h : hi = hi') {f : Nat → Task α Unit} {f' : Nat → Task β Unit}
    (hf : ∀ i, Task.Linked rel p Eq (f i) (f' i)) :
    Task.Linked rel p Eq (Task.forUp lo hi f) (Task.forUp lo hi' f') := h ▸ forEach _ hf

theorem foldEach {ι : Type} (l : List ι) {f : γ → ι → Task α γ}
    {f' : δ → ι → Task β δ} (hf : ∀ a b i, res a b → Task.Linked rel p res (f a i) (f' b i)) :
    ∀ {s : γ} {s' : δ}, res s s' →
      Task.Linked rel p res (Task.foldEach l s f) (Task.foldEach l s' f') := by
  induction l with
  | nil => exact fun hs => .done hs
  | cons i l ih => exact fun hs => (hf _ _ i hs).bind fun _ _ h => ih h

theorem foldUp {lo hi hi' : Nat} (h : hi = hi') {s : α} {s' : β} (hs : rel s s')
    {f : α → Nat → Task α α} {f' : β → Nat → Task β β}
    (hf : ∀ a b i, rel a b → Task.Linked rel p rel (f a i) (f' b i)) :
    Task.Linked rel p rel (Task.foldUp lo hi s f) (Task.foldUp lo hi' s' f') :=
  h ▸ foldEach _ hf hs

theorem ite {c : Prop} {_ : Decidable c} {s t : Task α γ} {s' t' : Task β δ}
    (hs : Task.Linked rel p res s s') (ht : Task.Linked rel p res t t') :
    Task.Linked rel p res (if c then s else t) (if c then s' else t') := by
  split
  · exact hs
  · exact ht

theorem vec_rd {x x' : Vec} (hx : x.Moved p x') (i : Nat) :
    Task.Linked rel p rel (x.rd i) (x'.rd i) := by
  unfold Vec.rd
  rw [← hx.ext]
  split
  · exact .load (hx.addr i ‹_›) fun _ _ h => .done h
  · exact .fail

theorem vec_wr {x x' : Vec} (hx : x.Moved p x') (i : Nat) {v : α} {w : β} (h : rel v w) :
    Task.Linked rel p Eq (x.wr i v) (x'.wr i w) := by
  unfold Vec.wr
  rw [← hx.ext]
  split
  · exact .store (hx.addr i ‹_›) h (.done rfl)
  · exact .fail

theorem mat_rd {A A' : Mat} (hA : A.Moved p A') (i j : Nat) :
    Task.Linked rel p rel (A.rd i j) (A'.rd i j) := by
  unfold Mat.rd
  rw [← hA.rows, ← hA.cols]
  split
  · rename_i hij
    exact .load (hA.addr i j hij.1 hij.2) fun _ _ h => .done h
  · exact .fail

theorem mat_wr {A A' : Mat} (hA : A.Moved p A') (i j : Nat) {v : α} {w : β} (h : rel v w) :
    Task.Linked rel p Eq (A.wr i j v) (A'.wr i j w) := by
  unfold Mat.wr
  rw [← hA.rows, ← hA.cols]
  split
  · rename_i hij
    exact .store (hA.addr i j hij.1 hij.2) h (.done rfl)
  · exact .fail

end Task.Linked

/-! ## Loops -/

/-- Two states of a running loop correspond. -/
structure Pool.Linked (rel : α → β → Prop) (p : Nat → Nat → Prop) (n : Nat) (c : Pool α) (d : Pool β) :
    Prop where
  todo : ∀ i, i < n → Task.Linked rel p Eq (c.todo i) (d.todo i)
  mem : Heap.Linked rel p c.mem d.mem

theorem Pool.Linked.step (hp : OneToOne p) {n : Nat} {c c' : Pool α} {d : Pool β}
    (H : Pool.Linked rel p n c d) (hs : Step n c c') :
    ∃ d', Step n d d' ∧ Pool.Linked rel p n c' d' := by
  cases hs with
  | @load ts h i a k v hi ht hv =>
    obtain ⟨ts', h'⟩ := d
    have h1 := H.todo i hi
    have h2 := H.mem
    dsimp only at h1 h2
    rw [ht] at h1
    generalize e : ts' i = t at h1
    cases h1 with
    | @load _ b _ k' q hk =>
      have h3 := h2 a b q
      rw [hv] at h3
      generalize e' : h' b = o at h3
      cases h3 with
      | @some _ w hvw =>
        refine ⟨_, Step.load hi e e', ⟨fun j hj => ?_, h2⟩⟩
        dsimp only
        by_cases hij : j = i
        · subst hij
          rw [Function.update_self, Function.update_self]
          exact hk _ _ hvw
        · rw [Function.update_of_ne hij, Function.update_of_ne hij]
          exact H.todo j hj
  | @store ts h i a k v u hi ht hu =>
    obtain ⟨ts', h'⟩ := d
    have h1 := H.todo i hi
    have h2 := H.mem
    dsimp only at h1 h2
    rw [ht] at h1
    generalize e : ts' i = t at h1
    cases h1 with
    | @store _ b _ w _ k' q hvw hk =>
      have h3 := h2 a b q
      rw [hu] at h3
      generalize e' : h' b = o at h3
      cases h3 with
      | @some _ w' _ =>
        refine ⟨_, Step.store hi e e', ⟨fun j hj => ?_, h2.update hp q hvw⟩⟩
        dsimp only
        by_cases hij : j = i
        · subst hij
          rw [Function.update_self, Function.update_self]
          exact hk
        · rw [Function.update_of_ne hij, Function.update_of_ne hij]
          exact H.todo j hj

theorem Pool.Linked.steps (hp : OneToOne p) {n : Nat} {c c' : Pool α} {d : Pool β}
    (H : Pool.Linked rel p n c d) (hs : Relation.ReflTransGen (Step n) c c') :
    ∃ d', Relation.ReflTransGen (Step n) d d' ∧ Pool.Linked rel p n c' d' := by
  induction hs with
  | refl => exact ⟨d, .refl, H⟩
  | tail _ h ih =>
    obtain ⟨d1, hd1, H1⟩ := ih
    obtain ⟨d2, hd2, H2⟩ := H1.step hp h
    exact ⟨d2, hd1.tail hd2, H2⟩

theorem Task.Linked.ended {res : γ → δ → Prop} {t : Task α γ} {t' : Task β δ}
    (H : Task.Linked rel p res t t') (h : t.Ended) : t'.Ended := by
  cases H with
  | done => trivial
  | fail => exact h
  | load => exact h
  | store => exact h

theorem Task.Linked.failsIn {res : γ → δ → Prop} {t : Task α γ} {t' : Task β δ} {h : Heap α} {k : Heap β}
    {e : Err} (H : Task.Linked rel p res t t') (hk : Heap.Linked rel p h k) (hf : t.FailsIn h e) :
    t'.FailsIn k e := by
  cases H with
  | done => exact hf
  | fail => exact hf
  | @load a b _ _ q _ =>
    refine ⟨?_, hf.2⟩
    have h1 := hk a b q
    rw [hf.1] at h1
    generalize e' : k b = o at h1
    cases h1
    rfl
  | @store a b _ _ _ _ q _ _ =>
    refine ⟨?_, hf.2⟩
    have h1 := hk a b q
    rw [hf.1] at h1
    generalize e' : k b = o at h1
    cases h1
    rfl

theorem Task.Linked.accesses {res : γ → δ → Prop} {t : Task α γ} {t' : Task β δ} {a : Nat}
    (H : Task.Linked rel p res t t') (h : t.Accesses a) : ∃ b, p a b ∧ t'.Accesses b := by
  cases H with
  | done => exact h.elim
  | fail => exact h.elim
  | @load a' b _ _ q _ => exact ⟨b, (show a' = a from h) ▸ q, rfl⟩
  | @store a' b _ _ _ _ q _ _ => exact ⟨b, (show a' = a from h) ▸ q, rfl⟩

theorem Task.Linked.writes {res : γ → δ → Prop} {t : Task α γ} {t' : Task β δ} {a : Nat}
    (H : Task.Linked rel p res t t') (h : t.Writes a) : ∃ b, p a b ∧ t'.Writes b := by
  cases H with
  | done => exact h.elim
  | fail => exact h.elim
  | load => exact h.elim
  | @store a' b _ _ _ _ q _ _ => exact ⟨b, (show a' = a from h) ▸ q, rfl⟩

theorem Pool.Linked.race (hp : OneToOne p) {n : Nat} {c : Pool α} {d : Pool β}
    (H : Pool.Linked rel p n c d) (hr : c.Race n) : d.Race n := by
  obtain ⟨i, j, a, hi, hj, hij, hw, ha⟩ := hr
  obtain ⟨b, q, hb⟩ := (H.todo i hi).writes hw
  obtain ⟨b', q', hb'⟩ := (H.todo j hj).accesses ha
  have e := (hp q q').1 rfl
  subst e
  exact ⟨i, j, b, hi, hj, hij, hb, hb'⟩

/-- Two calls do the same in all memories that correspond. -/
def Sched.Linked (rel : α → β → Prop) (p : Nat → Nat → Prop) (res : γ → δ → Prop) (P : Sched α γ)
    (Q : Sched β δ) : Prop :=
  ∀ h k, Heap.Linked rel p h k → SchedSame rel p res P Q h k

theorem parFor_sim (hp : OneToOne p) (n : Nat) {f : Nat → Task α Unit} {f' : Nat → Task β Unit}
    (hf : ∀ i, i < n → Task.Linked rel p Eq (f i) (f' i)) {h : Heap α} {k : Heap β}
    (hk : Heap.Linked rel p h k) {r : Except Err (Unit × Heap α)} (hr : parFor n f h r) :
    ∃ s, parFor n f' k s ∧ LinkedOutcome rel p (Eq : Unit → Unit → Prop) r s := by
  obtain ⟨c, hc, H⟩ := hr
  obtain ⟨d, hd, L⟩ := Pool.Linked.steps (d := ⟨f', k⟩) hp ⟨hf, hk⟩ hc
  rcases H with ⟨he, rfl⟩ | ⟨i, e, hi, he, rfl⟩ | ⟨hrace, rfl⟩
  · exact ⟨_, ⟨d, hd, .inl ⟨fun i hi => (L.todo i hi).ended (he i hi), rfl⟩⟩,
      .ok _ _ _ _ rfl L.mem⟩
  · exact ⟨_, ⟨d, hd, .inr (.inl ⟨i, e, hi, (L.todo i hi).failsIn L.mem he, rfl⟩)⟩, .error e⟩
  · exact ⟨_, ⟨d, hd, .inr (.inr ⟨L.race hp hrace, rfl⟩)⟩, .error _⟩

theorem Sched.Linked.parFor (hp : OneToOne p) {n n' : Nat} (hn : n = n') {f : Nat → Task α Unit}
    {f' : Nat → Task β Unit} (hf : ∀ i, Task.Linked rel p Eq (f i) (f' i)) :
    Sched.Linked rel p Eq (parFor n f) (parFor n' f') := by
  subst hn
  refine fun h k hk => ⟨fun r hr => parFor_sim hp n (fun i _ => hf i) hk hr, fun s hs => ?_⟩
  have hf' : ∀ i, Task.Linked (swapRel rel) (swapRel p) Eq (f' i) (f i) := fun i => by
    have := (hf i).swap
    have e : swapRel (Eq : Unit → Unit → Prop) = Eq := by funext a b; exact propext eq_comm
    rwa [e] at this
  obtain ⟨r, hr, H⟩ := parFor_sim hp.swap n (fun i _ => hf' i) hk.swap hs
  refine ⟨r, hr, LinkedOutcome.unswap ?_⟩
  have e : swapRel (Eq : Unit → Unit → Prop) = Eq := by funext a b; exact propext eq_comm
  rwa [e]

namespace Sched.Linked
variable {res : γ → δ → Prop}

theorem lift {P : Prog α γ} {Q : Prog β δ}
    (H : ∀ h k, Heap.Linked rel p h k → LinkedOutcome rel p res (P h) (Q k)) :
    Sched.Linked rel p res (Sched.lift P) (Sched.lift Q) := by
  intro h k hk
  refine ⟨?_, ?_⟩
  · rintro r rfl
    exact ⟨_, rfl, H h k hk⟩
  · rintro s rfl
    exact ⟨_, rfl, H h k hk⟩

theorem pure {a : γ} {b : δ} (h : res a b) :
    Sched.Linked rel p res (Pure.pure a : Sched α γ) (Pure.pure b : Sched β δ) :=
  lift fun _ _ hk => .ok _ _ _ _ h hk

theorem throw : Sched.Linked rel p res Sched.throw Sched.throw := lift fun _ _ _ => .error _

theorem bind {γ' δ' : Type} {res' : γ' → δ' → Prop} {P : Sched α γ} {Q : Sched β δ}
    {f : γ → Sched α γ'} {f' : δ → Sched β δ'} (H : Sched.Linked rel p res P Q)
    (hf : ∀ a b, res a b → Sched.Linked rel p res' (f a) (f' b)) :
    Sched.Linked rel p res' (P >>= f) (Q >>= f') := by
  intro h k hk
  refine ⟨?_, ?_⟩
  · rintro r (⟨e, hP, rfl⟩ | ⟨b, h', hP, hr⟩)
    · obtain ⟨s, hs, H1⟩ := (H h k hk).1 _ hP
      cases H1
      exact ⟨_, .inl ⟨e, hs, rfl⟩, .error e⟩
    · obtain ⟨s, hs, H1⟩ := (H h k hk).1 _ hP
      cases H1 with
      | ok a b' h1 k1 hab hk1 =>
        obtain ⟨s', hs', H2⟩ := (hf b b' hab h' k1 hk1).1 r hr
        exact ⟨s', .inr ⟨b', k1, hs, hs'⟩, H2⟩
  · rintro r (⟨e, hP, rfl⟩ | ⟨b, h', hP, hr⟩)
    · obtain ⟨s, hs, H1⟩ := (H h k hk).2 _ hP
      cases H1
      exact ⟨_, .inl ⟨e, hs, rfl⟩, .error e⟩
    · obtain ⟨s, hs, H1⟩ := (H h k hk).2 _ hP
      cases H1 with
      | ok a b' h1 k1 hab hk1 =>
        obtain ⟨s', hs', H2⟩ := (hf a b hab h1 h' hk1).2 r hr
        exact ⟨s', .inr ⟨a, h1, hs, hs'⟩, H2⟩

theorem forEach {ι : Type} (l : List ι) {f : ι → Sched α Unit} {f' : ι → Sched β Unit}
    (hf : ∀ i, Sched.Linked rel p Eq (f i) (f' i)) :
    Sched.Linked rel p Eq (Sched.forEach l f) (Sched.forEach l f') := by
  induction l with
  | nil => exact pure rfl
  | cons i l ih => exact (hf i).bind fun _ _ _ => ih

theorem require {a b a' b' : Nat} (ha : a = a') (hb : b = b') :
    Sched.Linked rel p Eq (StdBLAS.require (a = b) : Sched α Unit)
      (StdBLAS.require (a' = b') : Sched β Unit) := by
  subst ha hb
  unfold StdBLAS.require
  split
  · exact pure rfl
  · exact throw

theorem ite {c c' : Prop} {_ : Decidable c} {_ : Decidable c'} (hc : c ↔ c') {s t : Sched α γ}
    {s' t' : Sched β δ} (hs : Sched.Linked rel p res s s') (ht : Sched.Linked rel p res t t') :
    Sched.Linked rel p res (if c then s else t) (if c' then s' else t') := by
  by_cases h : c
  · rw [if_pos h, if_pos (hc.1 h)]
    exact hs
  · rw [if_neg h, if_neg fun h' => h (hc.2 h')]
    exact ht

theorem forEachMatrixElement (hp : OneToOne p) {A A' : Mat} (hA : A.Moved p A')
    {f : Nat → Nat → Task α Unit} {f' : Nat → Nat → Task β Unit}
    (hf : ∀ i j, Task.Linked rel p Eq (f i j) (f' i j)) :
    Sched.Linked rel p Eq (StdBLAS.forEachMatrixElement A f)
      (StdBLAS.forEachMatrixElement A' f') := by
  unfold StdBLAS.forEachMatrixElement
  refine ite (by rw [hA.rows, hA.cols]) ?_ ?_
  · exact parFor hp hA.rows fun i => .forUp hA.cols fun j => hf i j
  · exact parFor hp hA.cols fun j => .forUp hA.rows fun i => hf i j

theorem forEachTriangleElement (hp : OneToOne p) {A A' : Mat} (hA : A.Moved p A') (t : Triangle)
    {f : Nat → Nat → Task α Unit} {f' : Nat → Nat → Task β Unit}
    (hf : ∀ i j, Task.Linked rel p Eq (f i j) (f' i j)) :
    Sched.Linked rel p Eq (StdBLAS.forEachTriangleElement A t f)
      (StdBLAS.forEachTriangleElement A' t f') := by
  cases t
  · exact parFor hp hA.cols fun j => .forUp rfl fun i => hf i j
  · exact parFor hp hA.cols fun j => .forUp rfl fun i => hf j i

end Sched.Linked

/-! ## Reductions -/

/-- Two readers do the same in memories that correspond. -/
def Rd.Linked (rel : α → β → Prop) (p : Nat → Nat → Prop) (res : γ → δ → Prop) (P : Rd α γ)
    (Q : Rd β δ) : Prop :=
  ∀ h k, Heap.Linked rel p h k →
    (∃ e, P h = .error e ∧ Q k = .error e) ∨ ∃ a b, P h = .ok a ∧ Q k = .ok b ∧ res a b

namespace Rd.Linked
variable {res : γ → δ → Prop}

theorem pure {a : γ} {b : δ} (h : res a b) :
    Rd.Linked rel p res (Pure.pure a : Rd α γ) (Pure.pure b : Rd β δ) :=
  fun _ _ _ => .inr ⟨a, b, rfl, rfl, h⟩

theorem fail {e : Err} : Rd.Linked rel p res (Rd.fail e) (Rd.fail e) :=
  fun _ _ _ => .inl ⟨e, rfl, rfl⟩

theorem bind {γ' δ' : Type} {res' : γ' → δ' → Prop} {P : Rd α γ} {Q : Rd β δ}
    {f : γ → Rd α γ'} {f' : δ → Rd β δ'} (H : Rd.Linked rel p res P Q)
    (hf : ∀ a b, res a b → Rd.Linked rel p res' (f a) (f' b)) :
    Rd.Linked rel p res' (P >>= f) (Q >>= f') := by
  intro h k hk
  have e1 : (P >>= f) h = (P h >>= fun a => f a h) := rfl
  have e2 : (Q >>= f') k = (Q k >>= fun a => f' a k) := rfl
  rw [e1, e2]
  rcases H h k hk with ⟨e, he, he'⟩ | ⟨a, b, ha, hb, hab⟩
  · rw [he, he']
    exact .inl ⟨e, rfl, rfl⟩
  · rw [ha, hb]
    exact hf a b hab h k hk

theorem cell {a b : Nat} (q : p a b) :
    Rd.Linked rel p rel (Rd.cell a : Rd α α) (Rd.cell b : Rd β β) := by
  intro h k hk
  unfold Rd.cell
  have h1 := hk a b q
  generalize h a = o at h1
  generalize k b = o' at h1
  cases h1 with
  | none => exact .inl ⟨.ub, rfl, rfl⟩
  | some hv => exact .inr ⟨_, _, rfl, rfl, hv⟩

theorem vec_look {x x' : Vec} (hx : x.Moved p x') (i : Nat) :
    Rd.Linked rel p rel (x.look i : Rd α α) (x'.look i : Rd β β) := by
  unfold Vec.look
  rw [← hx.ext]
  split
  · exact cell (hx.addr i ‹_›)
  · exact fail

theorem mat_look {A A' : Mat} (hA : A.Moved p A') {i i' j j' : Nat} (hi : i = i') (hj : j = j') :
    Rd.Linked rel p rel (A.look i j : Rd α α) (A'.look i' j' : Rd β β) := by
  subst hi hj
  unfold Mat.look
  rw [← hA.rows, ← hA.cols]
  split
  · rename_i hij
    exact cell (hA.addr i j hij.1 hij.2)
  · exact fail

theorem divLook {a a' b b' : ℝ} (ha : a = a') (hb : b = b') :
    Rd.Linked rel p Eq (StdBLAS.divLook a b : Rd α ℝ) (StdBLAS.divLook a' b' : Rd β ℝ) := by
  subst ha hb
  unfold StdBLAS.divLook
  split
  · exact fail
  · exact pure rfl

theorem foldlM {ι : Type} (l : List ι) {f : γ → ι → Rd α γ} {f' : δ → ι → Rd β δ}
    (hf : ∀ a b i, res a b → Rd.Linked rel p res (f a i) (f' b i)) :
    ∀ {s : γ} {s' : δ}, res s s' → Rd.Linked rel p res (l.foldlM f s) (l.foldlM f' s') := by
  induction l with
  | nil => exact fun hs => pure hs
  | cons i l ih =>
    intro s s' hs
    rw [List.foldlM_cons, List.foldlM_cons]
    exact (hf _ _ i hs).bind fun _ _ h => ih h

theorem foldUp {lo hi hi' : Nat} (h : hi = hi') {s s' : ℝ} (hs : s = s')
    {f : ℝ → Nat → Rd α ℝ} {f' : ℝ → Nat → Rd β ℝ}
    (hf : ∀ a b i, a = b → Rd.Linked rel p Eq (f a i) (f' b i)) :
    Rd.Linked rel p Eq (Rd.foldUp lo hi s f) (Rd.foldUp lo hi' s' f') :=
  h ▸ foldlM _ hf hs

end Rd.Linked

theorem Sched.Linked.reduce {res : γ → δ → Prop} {n n' : Nat} (hn : n = n') {f : Nat → γ → Rd α γ}
    {f' : Nat → δ → Rd β δ} {e : γ} {e' : δ} {join : γ → γ → γ} {join' : δ → δ → δ} (he : res e e')
    (hj : ∀ a b c d, res a b → res c d → res (join a c) (join' b d))
    (hf : ∀ i a b, res a b → Rd.Linked rel p res (f i a) (f' i b)) :
    Sched.Linked rel p res (parReduce n f e join) (parReduce n' f' e' join') := by
  subst hn
  have key : ∀ t : RedTree, Rd.Linked rel p res (t.eval f e join) (t.eval f' e' join') := by
    intro t
    induction t with
    | chunk l => exact Rd.Linked.foldlM l (fun a b i h => hf i a b h) he
    | join s t ihs iht =>
      exact ihs.bind fun a b hab => iht.bind fun c d hcd => .pure (hj a b c d hab hcd)
  have key' : ∀ t : RedTree, ∀ h k, Heap.Linked rel p h k →
      LinkedOutcome rel p res ((t.eval f e join).prog h) ((t.eval f' e' join').prog k) := by
    intro t h k hk
    unfold Rd.prog
    rcases key t h k hk with ⟨e, he, he'⟩ | ⟨a, b, ha, hb, hab⟩
    · rw [he, he']
      exact .error e
    · rw [ha, hb]
      exact .ok _ _ _ _ hab hk
  intro h k hk
  refine ⟨?_, ?_⟩
  · rintro r ⟨t, ht, rfl⟩
    exact ⟨_, ⟨t, ht, rfl⟩, key' t h k hk⟩
  · rintro r ⟨t, ht, rfl⟩
    exact ⟨_, ⟨t, ht, rfl⟩, key' t h k hk⟩

theorem Sched.Linked.reduceReal {n n' : Nat} (hn : n = n') {f : Nat → ℝ → Rd α ℝ}
    {f' : Nat → ℝ → Rd β ℝ} {e e' : ℝ} (he : e = e') {join : ℝ → ℝ → ℝ}
    (hf : ∀ i a b, a = b → Rd.Linked rel p Eq (f i a) (f' i b)) :
    Sched.Linked rel p Eq (parReduce n f e join) (parReduce n' f' e' join) :=
  .reduce hn he (fun _ _ _ _ h h' => by rw [h, h']) hf

/-! ## Arguments -/

theorem KVec.Moved.view {x y : KVec} (h : KVec.Moved p x y) : x.view.Moved p y.view :=
  ⟨h.ext, h.addr⟩

theorem KMat.Moved.view {A B : KMat} (h : KMat.Moved p A B) : A.view.Moved p B.view := by
  unfold KMat.view
  rw [← h.transposed]
  split
  · exact ⟨h.mat.cols, h.mat.rows, fun i j hi hj => h.mat.addr j i hj hi⟩
  · exact h.mat

theorem Mat.Moved.get_linked {A B : Mat} (hA : A.Moved p B) {h : Heap α} {k : Heap β}
    (hk : Heap.Linked rel p h k) (i j : Nat) : LinkedOutcome rel p rel (A.get i j h) (B.get i j k) := by
  unfold Mat.get
  rw [← hA.rows, ← hA.cols]
  split
  · rename_i hij
    unfold Prog.load
    have h1 := hk _ _ (hA.addr i j hij.1 hij.2)
    generalize h (A.addr i j) = o at h1
    generalize k (B.addr i j) = o' at h1
    cases h1 with
    | none => exact .error _
    | some hv => exact .ok _ _ _ _ hv hk
  · exact .error _

theorem store_linked (hp : OneToOne p) {h : Heap α} {k : Heap β} (hk : Heap.Linked rel p h k) {a b : Nat}
    (q : p a b) {v : α} {w : β} (hv : rel v w) :
    LinkedOutcome rel p Eq (Prog.store a v h) (Prog.store b w k) := by
  unfold Prog.store
  have h1 := hk a b q
  generalize h a = o at h1
  generalize k b = o' at h1
  cases h1 with
  | none => exact .error _
  | some _ => exact .ok _ _ _ _ rfl (hk.update hp q hv)

theorem Sched.Linked.into {res : γ → δ → Prop} (hp : OneToOne p) {P : Sched α γ} {Q : Sched β δ}
    (H : Sched.Linked rel p res P Q) {f : γ → α} {f' : δ → β} (hf : ∀ a b, res a b → rel (f a) (f' b))
    {out out' : Nat} (q : p out out') :
    Sched.Linked rel p Eq (P.into f out) (Q.into f' out') :=
  H.bind fun _ _ h => .lift fun _ _ hk => store_linked hp hk q (hf _ _ h)

/-! ## Shared parts of the kernels -/

section
variable [Add α] [Mul α] [Zero α] [ConjOps α] [AbsOps α] [Add β] [Mul β] [Zero β] [ConjOps β] [AbsOps β]

omit [Add α] [Mul α] [Zero α] [ConjOps α] [AbsOps α] [Add β] [Mul β] [Zero β] [ConjOps β] [AbsOps β] in
theorem funRelated_id : FunRelated rel rel id id := fun h => h

theorem RespectsKokkos.funRelated_conj (hr : RespectsKokkos rel) :
    FunRelated rel rel ConjOps.conj ConjOps.conj := hr.conj

theorem Task.Linked.incr (hr : RespectsKokkos rel) {A A' : Mat} (hA : A.Moved p A') (i j : Nat)
    {v : α} {w : β} (h : rel v w) : Task.Linked rel p Eq (A.incr i j v) (A'.incr i j w) :=
  (mat_rd hA i j).bind fun _ _ h' => mat_wr hA i j (hr.add h' h)

theorem Task.Linked.symRow (hr : RespectsKokkos rel) {c : α → α} {c' : β → β} (hc : FunRelated rel rel c c')
    {A A' : Mat} (hA : A.Moved p A') (t : Triangle) {x x' : Vec} (hx : x.Moved p x') (i : Nat) :
    Task.Linked rel p rel (kkSymRow c A t x i) (kkSymRow c' A' t x' i) := by
  cases t
  · refine bind (foldUp hA.cols hr.zero fun _ _ j hs => (mat_rd hA i j).bind fun _ _ ha =>
      (vec_rd hx j).bind fun _ _ hb => .pure (hr.add hs (hr.mul ha hb))) fun _ _ hs => ?_
    exact foldUp rfl hs fun _ _ j hs => (mat_rd hA j i).bind fun _ _ ha =>
      (vec_rd hx j).bind fun _ _ hb => .pure (hr.add hs (hr.mul (hc ha) hb))
  · refine bind (foldUp rfl hr.zero fun _ _ j hs => (mat_rd hA i j).bind fun _ _ ha =>
      (vec_rd hx j).bind fun _ _ hb => .pure (hr.add hs (hr.mul ha hb))) fun _ _ hs => ?_
    exact foldUp hA.cols hs fun _ _ j hs => (mat_rd hA j i).bind fun _ _ ha =>
      (vec_rd hx j).bind fun _ _ hb => .pure (hr.add hs (hr.mul (hc ha) hb))

theorem Task.Linked.triRow (hr : RespectsKokkos rel) {A A' : Mat} (hA : A.Moved p A') (t : Triangle)
    (d : Diag) {x x' : Vec} (hx : x.Moved p x') (i : Nat) :
    Task.Linked rel p rel (kkTriRow A t d x i) (kkTriRow A' t d x' i) := by
  have hend : ∀ a b, rel a b → Task.Linked rel p rel
      (if d = .implicitUnit then do
        let xi ← x.rd i
        Pure.pure (a + xi)
      else Pure.pure a)
      (if d = .implicitUnit then do
        let xi ← x'.rd i
        Pure.pure (b + xi)
      else Pure.pure b) := fun _ _ hs =>
    ite ((vec_rd hx i).bind fun _ _ hb => .pure (hr.add hs hb)) (.pure hs)
  cases t
  · exact bind (foldUp hA.cols hr.zero fun _ _ j hs => (mat_rd hA i j).bind fun _ _ ha =>
      (vec_rd hx j).bind fun _ _ hb => .pure (hr.add hs (hr.mul ha hb))) hend
  · exact bind (foldUp rfl hr.zero fun _ _ j hs => (mat_rd hA i j).bind fun _ _ ha =>
      (vec_rd hx j).bind fun _ _ hb => .pure (hr.add hs (hr.mul ha hb))) hend

theorem Task.Linked.leftTerm (hr : RespectsKokkos rel) {c : α → α} {c' : β → β}
    (hc : FunRelated rel rel c c') (t : Triangle) {A A' B B' : KMat} (hA : A.Moved p A')
    (hB : B.Moved p B') (i j k : Nat) :
    Task.Linked rel p rel (kkLeftTerm c t A B i j k) (kkLeftTerm c' t A' B' i j k) := by
  have hend : ∀ a b, rel a b → Task.Linked rel p rel
      (do let v ← B.view.rd k j; Pure.pure (a * v)) (do let v ← B'.view.rd k j; Pure.pure (b * v)) :=
    fun _ _ ha => (mat_rd hB.view k j).bind fun _ _ hb => .pure (hr.mul ha hb)
  exact ite ((mat_rd hA.view k i).bind fun _ _ h => (Task.Linked.pure (hc h)).bind hend)
    ((mat_rd hA.view i k).bind hend)

theorem Task.Linked.rightTerm (hr : RespectsKokkos rel) {c : α → α} {c' : β → β}
    (hc : FunRelated rel rel c c') (t : Triangle) {A A' B B' : KMat} (hA : A.Moved p A')
    (hB : B.Moved p B') (i j k : Nat) :
    Task.Linked rel p rel (kkRightTerm c t A B i j k) (kkRightTerm c' t A' B' i j k) := by
  have hend : ∀ a b, rel a b → Task.Linked rel p rel
      (do let v ← B.toMat.rd i k; Pure.pure (v * a)) (do let v ← B'.toMat.rd i k; Pure.pure (v * b)) :=
    fun _ _ ha => (mat_rd hB.mat i k).bind fun _ _ hb => .pure (hr.mul hb ha)
  exact ite ((mat_rd hA.view j k).bind fun _ _ h => (Task.Linked.pure (hc h)).bind hend)
    ((mat_rd hA.view k j).bind hend)

theorem Sched.Linked.product (hp : OneToOne p) (hr : RespectsKokkos rel) {A A' C C' : KMat}
    (hA : A.Moved p A') (hC : C.Moved p C') {init : Nat → Nat → Task α α} {init' : Nat → Nat → Task β β}
    (hi : ∀ i j, Task.Linked rel p rel (init i j) (init' i j))
    {term : Nat → Nat → Nat → Task α α} {term' : Nat → Nat → Nat → Task β β}
    (ht : ∀ i j k, Task.Linked rel p rel (term i j k) (term' i j k)) :
    Sched.Linked rel p Eq (kkProduct A C init term) (kkProduct A' C' init' term') :=
  forEachMatrixElement hp hC.view fun i j => (hi i j).bind fun _ _ h0 =>
    (Task.Linked.mat_wr hC.view i j h0).bind fun _ _ _ => .forUp hA.view.cols fun k =>
      (ht i j k).bind fun _ _ h => .incr hr hC.view i j h

omit [Add α] [Mul α] [Zero α] [ConjOps α] [AbsOps α] [Add β] [Mul β] [Zero β] [ConjOps β] [AbsOps β] in
theorem Sched.Linked.checkSquare {A A' : KMat} {x x' y y' : KVec} (hA : A.Moved p A') (hx : x.Moved p x')
    (hy : y.Moved p y') :
    Sched.Linked rel p Eq (kkCheckSquare A x y) (kkCheckSquare A' x' y') :=
  (require hA.mat.rows hA.mat.cols).bind fun _ _ _ => (require hA.mat.cols hx.ext).bind fun _ _ _ =>
    require hA.mat.rows hy.ext

omit [Add α] [Mul α] [Zero α] [ConjOps α] [AbsOps α] [Add β] [Mul β] [Zero β] [ConjOps β] [AbsOps β] in
theorem Sched.Linked.checkLeft {A A' B B' C C' : KMat} (hA : A.Moved p A') (hB : B.Moved p B')
    (hC : C.Moved p C') :
    Sched.Linked rel p Eq (kkCheckLeft A B C) (kkCheckLeft A' B' C') :=
  (require hA.mat.rows hA.mat.cols).bind fun _ _ _ => (require hA.mat.cols hB.mat.rows).bind fun _ _ _ =>
    (require hA.mat.rows hC.mat.rows).bind fun _ _ _ => require hB.mat.cols hC.mat.cols

omit [Add α] [Mul α] [Zero α] [ConjOps α] [AbsOps α] [Add β] [Mul β] [Zero β] [ConjOps β] [AbsOps β] in
theorem Sched.Linked.checkRight {A A' B B' C C' : KMat} (hA : A.Moved p A') (hB : B.Moved p B')
    (hC : C.Moved p C') :
    Sched.Linked rel p Eq (kkCheckRight A B C) (kkCheckRight A' B' C') :=
  (require hA.mat.rows hA.mat.cols).bind fun _ _ _ => (require hB.mat.cols hA.mat.rows).bind fun _ _ _ =>
    (require hB.mat.rows hC.mat.rows).bind fun _ _ _ => require hA.mat.cols hC.mat.cols

omit [Add α] [Mul α] [Zero α] [ConjOps α] [AbsOps α] [Add β] [Mul β] [Zero β] [ConjOps β] [AbsOps β] in
theorem Sched.Linked.checkE {E E' C C' : KMat} (hE : E.Moved p E') (hC : C.Moved p C') :
    Sched.Linked rel p Eq (kkCheckE E C) (kkCheckE E' C') :=
  (require hE.mat.rows hC.mat.rows).bind fun _ _ _ => require hE.mat.cols hC.mat.cols

theorem Sched.Linked.trmmLeft (hp : OneToOne p) (hr : RespectsKokkos rel) (t : Triangle) (d : Diag)
    {A A' B B' C C' : Mat} (hA : A.Moved p A') (hB : B.Moved p B') (hC : C.Moved p C') :
    Sched.Linked rel p Eq (kkTrmmLeftViews t d A B C) (kkTrmmLeftViews t d A' B' C') := by
  unfold kkTrmmLeftViews
  rw [← hC.rows, ← hC.cols]
  refine forEach _ fun ii => parFor hp rfl fun j => ?_
  refine Task.Linked.bind (.foldUp rfl hr.zero fun _ _ k hs => (Task.Linked.mat_rd hA _ k).bind fun _ _ ha =>
    (Task.Linked.mat_rd hB k j).bind fun _ _ hb => .pure (hr.add hs (hr.mul ha hb))) fun _ _ hs => ?_
  exact Task.Linked.ite ((Task.Linked.mat_rd hB _ j).bind fun _ _ hb =>
    (Task.Linked.pure (hr.add hs hb)).bind fun _ _ h => .mat_wr hC _ _ h)
    ((Task.Linked.pure hs).bind fun _ _ h => .mat_wr hC _ _ h)

theorem Sched.Linked.trmmRight (hp : OneToOne p) (hr : RespectsKokkos rel) (t : Triangle) (d : Diag)
    {A A' B B' C C' : Mat} (hA : A.Moved p A') (hB : B.Moved p B') (hC : C.Moved p C') :
    Sched.Linked rel p Eq (kkTrmmRightViews t d A B C) (kkTrmmRightViews t d A' B' C') := by
  unfold kkTrmmRightViews
  rw [← hC.rows, ← hC.cols]
  refine forEach _ fun ii => parFor hp rfl fun i => ?_
  refine Task.Linked.bind (.foldUp rfl hr.zero fun _ _ k hs => (Task.Linked.mat_rd hB i k).bind fun _ _ ha =>
    (Task.Linked.mat_rd hA k _).bind fun _ _ hb => .pure (hr.add hs (hr.mul ha hb))) fun _ _ hs => ?_
  exact Task.Linked.ite ((Task.Linked.mat_rd hB i _).bind fun _ _ hb =>
    (Task.Linked.pure (hr.add hs hb)).bind fun _ _ h => .mat_wr hC _ _ h)
    ((Task.Linked.pure hs).bind fun _ _ h => .mat_wr hC _ _ h)

end

end StdBLAS

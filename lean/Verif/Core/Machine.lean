import Mathlib.Data.List.Range
import Mathlib.Tactic.Basic

/-!
# The machine

Memory, outcomes, programs, loops.  Nothing here is specific to one algorithm.

* A memory cell holds a value or cannot be accessed (`none`: not allocated, or
  not initialised).
* A program ends normally with a result and a memory, or ends in an error.
-/

namespace StdBLAS

/-- Memory: address to value; `none` is a cell that must not be accessed. -/
abbrev Heap (α : Type) : Type := Nat → Option α

/-- Ways for a call not to end normally. -/
inductive Err where
  /-- undefined behaviour: index outside the extents, or inaccessible memory -/
  | ub
  /-- an `assert` fails (build without `NDEBUG`) -/
  | assertFail
  /-- a C++ exception leaves the function -/
  | exn
  /-- division by zero (undefined for integers; infinity or NaN for floating point) -/
  | divZero
  /-- more loop iterations than a given bound (only for loops whose integer arithmetic is
  modelled with fixed-width types, `Core/IntTypes`) -/
  | hang
  deriving DecidableEq, Repr

/-- A C++ function body over memory with elements of type `α`, returning `β`. -/
def Prog (α β : Type) : Type := Heap α → Except Err (β × Heap α)

namespace Prog
variable {α β γ : Type}

/-- Return a value without touching memory. -/
def ret (b : β) : Prog α β := fun h => .ok (b, h)

/-- Sequential composition; an error ends the whole call. -/
def seq (p : Prog α β) (f : β → Prog α γ) : Prog α γ := fun h =>
  match p h with
  | .error e => .error e
  | .ok (b, h') => f b h'

/-- A call that ends in error `e`. -/
def fail (e : Err) : Prog α β := fun _ => .error e

instance : Monad (Prog α) where
  pure := ret
  bind := seq

/-- Read one memory cell; reading an inaccessible cell is undefined behaviour. -/
def load (a : Nat) : Prog α α := fun h =>
  match h a with
  | some v => .ok (v, h)
  | none => .error .ub

/-- Write one memory cell; writing an inaccessible cell is undefined behaviour. -/
def store (a : Nat) (v : α) : Prog α Unit := fun h =>
  match h a with
  | some _ => .ok ((), Function.update h a (some v))
  | none => .error .ub

end Prog

open Prog

/-- `for (x : l) body(x)` : run the body for the listed loop-variable values in order.
A C++ loop `for (i = lo; i < hi; ++i)` visits `List.range' lo (hi - lo)`. -/
def forEach {α ι : Type} : List ι → (ι → Prog α Unit) → Prog α Unit
  | [], _ => pure ()
  | i :: l, body => do body i; forEach l body

/-- A loop that also carries a local variable `s` (an accumulator on the stack). -/
def foldEach {α ι σ : Type} : List ι → σ → (σ → ι → Prog α σ) → Prog α σ
  | [], s, _ => pure s
  | i :: l, s, body => do let s' ← body s i; foldEach l s' body

/-- `for (i = lo; i < hi; ++i)`. -/
def forUp {α : Type} (lo hi : Nat) (body : Nat → Prog α Unit) : Prog α Unit :=
  forEach (List.range' lo (hi - lo)) body

/-- `for (i = n; i > 0; --i)` with body index `i - 1`; also `for (i = n-1; i >= 0; --i)`
over a signed type: visits `n-1, ..., 0`. -/
def forDown {α : Type} (n : Nat) (body : Nat → Prog α Unit) : Prog α Unit :=
  forEach (List.range n).reverse body

/-- Program `p` started in memory `h` ends normally, with a result and a memory
that satisfy `Q`.  In particular there is no undefined behaviour. -/
def Ends {α β : Type} (p : Prog α β) (h : Heap α) (Q : β → Heap α → Prop) : Prop :=
  ∃ b h', p h = .ok (b, h') ∧ Q b h'

/-- Program `p` started in `h` ends in error `e`. -/
def Fails {α β : Type} (p : Prog α β) (h : Heap α) (e : Err) : Prop :=
  p h = .error e

/-! ## Rules -/

section rules
variable {α β γ ι σ : Type} {h : Heap α}

@[simp] theorem ends_pure {b : β} {Q : β → Heap α → Prop} :
    Ends (pure b : Prog α β) h Q ↔ Q b h := by
  constructor
  · rintro ⟨b', h', e, q⟩
    cases e; exact q
  · intro q; exact ⟨b, h, rfl, q⟩

@[simp] theorem ends_bind {p : Prog α β} {f : β → Prog α γ} {Q : γ → Heap α → Prop} :
    Ends (p >>= f) h Q ↔ Ends p h (fun b h' => Ends (f b) h' Q) := by
  constructor
  · rintro ⟨c, h'', e, q⟩
    change Prog.seq p f h = _ at e
    unfold Prog.seq at e
    split at e
    · cases e
    · next b h' e' => exact ⟨b, h', e', c, h'', e, q⟩
  · rintro ⟨b, h', e, c, h'', e', q⟩
    refine ⟨c, h'', ?_, q⟩
    change Prog.seq p f h = _
    unfold Prog.seq
    rw [e]; exact e'

@[simp] theorem ends_load {a : Nat} {Q : α → Heap α → Prop} :
    Ends (load a) h Q ↔ ∃ v, h a = some v ∧ Q v h := by
  unfold Ends load
  cases h a with
  | none => simp
  | some v =>
    constructor
    · rintro ⟨b, h', e, q⟩; cases e; exact ⟨v, rfl, q⟩
    · rintro ⟨w, e, q⟩; cases e; exact ⟨_, _, rfl, q⟩

@[simp] theorem ends_store {a : Nat} {v : α} {Q : Unit → Heap α → Prop} :
    Ends (store a v) h Q ↔ (∃ w, h a = some w) ∧ Q () (Function.update h a (some v)) := by
  unfold Ends store
  cases e : h a with
  | none => simp
  | some w =>
    constructor
    · rintro ⟨b, h', e, q⟩; cases e; exact ⟨⟨w, rfl⟩, q⟩
    · rintro ⟨_, q⟩; exact ⟨_, _, rfl, q⟩

@[simp] theorem ends_fail {e : Err} {Q : β → Heap α → Prop} :
    ¬ Ends (Prog.fail e : Prog α β) h Q := by
  rintro ⟨b, h', e, _⟩; cases e

theorem Ends.mono {p : Prog α β} {Q Q' : β → Heap α → Prop}
    (hp : Ends p h Q) (hq : ∀ b h', Q b h' → Q' b h') : Ends p h Q' := by
  obtain ⟨b, h', e, q⟩ := hp
  exact ⟨b, h', e, hq _ _ q⟩

/-- Programs are deterministic: two normal ends are the same end. -/
theorem Ends.and {p : Prog α β} {Q Q' : β → Heap α → Prop}
    (hp : Ends p h Q) (hp' : Ends p h Q') : Ends p h (fun b h' => Q b h' ∧ Q' b h') := by
  obtain ⟨b, h', e, q⟩ := hp
  obtain ⟨b', h'', e', q'⟩ := hp'
  rw [e] at e'; cases e'
  exact ⟨b, h', e, q, q'⟩

theorem Ends.not_fails {p : Prog α β} {Q : β → Heap α → Prop} (hp : Ends p h Q) (e : Err) :
    ¬ Fails p h e := by
  obtain ⟨b, h', e', _⟩ := hp
  unfold Fails; rw [e']; simp

@[simp] theorem forEach_nil (body : ι → Prog α Unit) : forEach [] body = pure () := rfl
@[simp] theorem forEach_cons (i : ι) (l : List ι) (body : ι → Prog α Unit) :
    forEach (i :: l) body = (body i >>= fun _ => forEach l body) := rfl

/-- Refinement rule: a loop whose body tracks an abstract state `s` through `step`. -/
theorem ends_forEach_fold {l : List ι} {body : ι → Prog α Unit}
    (R : σ → Heap α → Prop) (step : σ → ι → σ)
    (hbody : ∀ i ∈ l, ∀ s h, R s h → Ends (body i) h (fun _ h' => R (step s i) h'))
    {s : σ} (h0 : R s h) :
    Ends (forEach l body) h (fun _ h' => R (l.foldl step s) h') := by
  induction l generalizing s h with
  | nil => simpa using h0
  | cons i l ih =>
    rw [forEach_cons, ends_bind]
    refine (hbody i (by simp) s h h0).mono fun _ h' r => ?_
    exact ih (fun j hj => hbody j (List.mem_cons_of_mem _ hj)) r

/-- Invariant rule: the invariant may mention the elements already visited. -/
theorem ends_forEach_inv {l : List ι} {body : ι → Prog α Unit}
    (I : List ι → Heap α → Prop)
    (hbody : ∀ pre i post, l = pre ++ i :: post → ∀ h, I pre h →
      Ends (body i) h (fun _ h' => I (pre ++ [i]) h'))
    (h0 : I [] h) :
    Ends (forEach l body) h (fun _ h' => I l h') := by
  suffices H : ∀ (post pre : List ι) h, l = pre ++ post → I pre h →
      Ends (forEach post body) h (fun _ h' => I l h') from H l [] h rfl h0
  intro post
  induction post with
  | nil => intro pre h e hi; simpa [e] using hi
  | cons i post ih =>
    intro pre h e hi
    rw [forEach_cons, ends_bind]
    refine (hbody pre i post e h hi).mono fun _ h' r => ?_
    exact ih (pre ++ [i]) h' (by simp [e]) r

theorem ends_foldEach_fold {l : List ι} {body : σ → ι → Prog α σ}
    {τ : Type} (R : τ → σ → Heap α → Prop) (step : τ → ι → τ)
    (hbody : ∀ i ∈ l, ∀ t s h, R t s h → Ends (body s i) h (fun s' h' => R (step t i) s' h'))
    {t : τ} {s : σ} (h0 : R t s h) :
    Ends (foldEach l s body) h (fun s' h' => R (l.foldl step t) s' h') := by
  induction l generalizing t s h with
  | nil => simpa [foldEach] using h0
  | cons i l ih =>
    change Ends (body s i >>= fun s' => foldEach l s' body) h _
    rw [ends_bind]
    refine (hbody i (by simp) t s h h0).mono fun s' h' r => ?_
    exact ih (fun j hj => hbody j (List.mem_cons_of_mem _ hj)) r

/-- A loop nest with independent index lists is one loop over pairs. -/
theorem forEach_append (l l' : List ι) (body : ι → Prog α Unit) :
    forEach (l ++ l') body = (forEach l body >>= fun _ => forEach l' body) := by
  induction l with
  | nil => funext h; rfl
  | cons i l ih =>
    rw [List.cons_append, forEach_cons, ih, forEach_cons]
    funext h
    change Prog.seq _ _ h = Prog.seq (Prog.seq _ _) _ h
    unfold Prog.seq
    cases body i h <;> rfl

theorem forEach_map {κ : Type} (l : List κ) (g : κ → ι) (body : ι → Prog α Unit) :
    forEach (l.map g) body = forEach l (fun k => body (g k)) := by
  induction l with
  | nil => rfl
  | cons i l ih => rw [List.map_cons, forEach_cons, ih, forEach_cons]

theorem forEach_nest {κ : Type} (l : List ι) (m : ι → List κ) (body : ι → κ → Prog α Unit) :
    forEach l (fun i => forEach (m i) (body i)) =
      forEach (l.flatMap fun i => (m i).map (Prod.mk i)) (fun p => body p.1 p.2) := by
  induction l with
  | nil => rfl
  | cons i l ih =>
    rw [List.flatMap_cons, forEach_append, forEach_cons, ih, forEach_map]

end rules

end StdBLAS

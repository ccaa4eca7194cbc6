import Mathlib.Logic.Function.Basic
import Mathlib.Logic.Relation
import Mathlib.Data.List.Perm.Basic
import Verif.Core.Mdspan

/-!
# Parallel loops

The Kokkos constructs that the backend uses: `Kokkos::parallel_for` over a range and
`Kokkos::parallel_reduce` over a range.

* `Task`: the body of one loop iteration, as a sequence of single memory accesses.
* `parFor`: all iterations run at the same time; their memory accesses are interleaved in
  any way.  Two iterations that are about to access the same cell, one of them to write it,
  are a data race: undefined behaviour.  (Running several iterations on one thread, in any
  order, is one of the interleavings.)
* `parReduce`: the range is cut into chunks in any way, each chunk is visited in any order
  with its own accumulator, and the accumulators are joined along any binary tree.
* `Sched`: a call whose outcome depends on the schedule: a relation from the memory to the
  possible outcomes.

Kokkos itself is not part of the repository.  This file is an assumption about it.
-/

namespace StdBLAS

/-! ## One iteration -/

/-- A sequence of memory accesses that ends with a value or an error. -/
inductive Task (α β : Type) : Type where
  | done (b : β)
  | fail (e : Err)
  | load (a : Nat) (k : α → Task α β)
  | store (a : Nat) (v : α) (k : Task α β)

namespace Task
variable {α β γ : Type}

/-- Sequential composition. -/
def bind : Task α β → (β → Task α γ) → Task α γ
  | done b, f => f b
  | fail e, _ => fail e
  | load a k, f => load a (fun v => (k v).bind f)
  | store a v k, f => store a v (k.bind f)

instance : Monad (Task α) where
  pure := done
  bind := bind

/-- Running a task alone, from start to end. -/
def run : Task α β → Prog α β
  | done b => pure b
  | fail e => Prog.fail e
  | load a k => Prog.load a >>= fun v => (k v).run
  | store a v k => Prog.store a v >>= fun _ => k.run

/-- `for (x : l) body(x)` inside one iteration. -/
def forEach {ι : Type} : List ι → (ι → Task α Unit) → Task α Unit
  | [], _ => pure ()
  | i :: l, body => do body i; forEach l body

/-- A loop inside one iteration that carries a local variable. -/
def foldEach {ι σ : Type} : List ι → σ → (σ → ι → Task α σ) → Task α σ
  | [], s, _ => pure s
  | i :: l, s, body => do let s' ← body s i; foldEach l s' body

/-- `for (i = lo; i < hi; ++i)` inside one iteration. -/
def forUp (lo hi : Nat) (body : Nat → Task α Unit) : Task α Unit :=
  forEach (List.range' lo (hi - lo)) body

/-- `for (i = lo; i < hi; ++i)` with a local variable. -/
def foldUp {σ : Type} (lo hi : Nat) (s : σ) (body : σ → Nat → Task α σ) : Task α σ :=
  foldEach (List.range' lo (hi - lo)) s body

end Task

/-- Read `x(i)` of a Kokkos view; an index outside the extent is undefined behaviour. -/
def Vec.rd {α : Type} (x : Vec) (i : Nat) : Task α α :=
  if i < x.ext then .load (x.addr i) .done else .fail .ub

/-- Write `x(i) = v`. -/
def Vec.wr {α : Type} (x : Vec) (i : Nat) (v : α) : Task α Unit :=
  if i < x.ext then .store (x.addr i) v (.done ()) else .fail .ub

/-- Read `A(i, j)`. -/
def Mat.rd {α : Type} (A : Mat) (i j : Nat) : Task α α :=
  if i < A.rows ∧ j < A.cols then .load (A.addr i j) .done else .fail .ub

/-- Write `A(i, j) = v`. -/
def Mat.wr {α : Type} (A : Mat) (i j : Nat) (v : α) : Task α Unit :=
  if i < A.rows ∧ j < A.cols then .store (A.addr i j) v (.done ()) else .fail .ub

/-! ## Calls whose outcome depends on the schedule -/

/-- `p h r`: started in memory `h`, some schedule of `p` ends with outcome `r`. -/
def Sched (α β : Type) : Type := Heap α → Except Err (β × Heap α) → Prop

namespace Sched
variable {α β γ : Type}

/-- A call that does not depend on the schedule. -/
def lift (p : Prog α β) : Sched α β := fun h r => p h = r

/-- Sequential composition: the second call starts after the first has ended. -/
def seq (p : Sched α β) (f : β → Sched α γ) : Sched α γ := fun h r =>
  (∃ e, p h (.error e) ∧ r = .error e) ∨ ∃ b h', p h (.ok (b, h')) ∧ f b h' r

instance : Monad (Sched α) where
  pure b := lift (pure b)
  bind := seq

/-- `throw`. -/
def throw : Sched α β := lift (Prog.fail .exn)

/-- A sequential loop around parallel calls. -/
def forEach {ι : Type} : List ι → (ι → Sched α Unit) → Sched α Unit
  | [], _ => pure ()
  | i :: l, body => do body i; forEach l body

end Sched

/-- Whatever the schedule, the call ends normally, with a result and a memory that satisfy
`Q`: no schedule gives undefined behaviour, an exception or a data race.  (That every
schedule ends is `C48_every_schedule_ends`.) -/
def Surely {α β : Type} (p : Sched α β) (h : Heap α) (Q : β → Heap α → Prop) : Prop :=
  (∃ r, p h r) ∧ ∀ r, p h r → ∃ b h', r = .ok (b, h') ∧ Q b h'

/-- Whatever the schedule, the call ends in error `e`. -/
def SurelyFails {α β : Type} (p : Sched α β) (h : Heap α) (e : Err) : Prop :=
  ∀ r, p h r ↔ r = .error e

/-! ## parallel_for -/

/-- The state of a running `parallel_for`: what each iteration has still to do, and the
memory they share. -/
structure Pool (α : Type) where
  todo : Nat → Task α Unit
  mem : Heap α

/-- One memory access of one of the `n` iterations. -/
inductive Step {α : Type} (n : Nat) : Pool α → Pool α → Prop where
  | load {ts : Nat → Task α Unit} {h : Heap α} {i a : Nat} {k : α → Task α Unit} {v : α} :
      i < n → ts i = .load a k → h a = some v →
      Step n ⟨ts, h⟩ ⟨Function.update ts i (k v), h⟩
  | store {ts : Nat → Task α Unit} {h : Heap α} {i a : Nat} {k : Task α Unit} {v w : α} :
      i < n → ts i = .store a v k → h a = some w →
      Step n ⟨ts, h⟩ ⟨Function.update ts i k, Function.update h a (some v)⟩

namespace Task
variable {α β : Type}

/-- The next access of this task is to cell `a`. -/
def Accesses (a : Nat) : Task α β → Prop
  | load b _ => b = a
  | store b _ _ => b = a
  | _ => False

/-- The next access of this task writes cell `a`. -/
def Writes (a : Nat) : Task α β → Prop
  | store b _ _ => b = a
  | _ => False

/-- The next action of this task is the error `e` in memory `h`. -/
def FailsIn (h : Heap α) (e : Err) : Task α β → Prop
  | fail e' => e' = e
  | load a _ => h a = none ∧ e = .ub
  | store a _ _ => h a = none ∧ e = .ub
  | done _ => False

/-- Nothing left to do. -/
def Ended : Task α β → Prop
  | done _ => True
  | _ => False

end Task

/-- Two of the `n` iterations are about to access the same cell and one of them writes. -/
def Pool.Race {α : Type} (n : Nat) (c : Pool α) : Prop :=
  ∃ i j a, i < n ∧ j < n ∧ i ≠ j ∧ (c.todo i).Writes a ∧ (c.todo j).Accesses a

/-- `Kokkos::parallel_for(RangePolicy(exec, 0, n), body)` followed by a fence. -/
def parFor {α : Type} (n : Nat) (body : Nat → Task α Unit) : Sched α Unit := fun h r =>
  ∃ c : Pool α, Relation.ReflTransGen (Step n) ⟨body, h⟩ c ∧
    ((∀ i, i < n → (c.todo i).Ended) ∧ r = .ok ((), c.mem) ∨
     (∃ i e, i < n ∧ (c.todo i).FailsIn c.mem e ∧ r = .error e) ∨
     c.Race n ∧ r = .error .ub)

/-! ## parallel_reduce -/

/-- Code that reads memory and does not write it. -/
abbrev Rd (α β : Type) : Type := ReaderT (Heap α) (Except Err) β

namespace Rd
variable {α β : Type}

/-- An error. -/
def fail (e : Err) : Rd α β := fun _ => .error e

/-- Read one cell. -/
def cell (a : Nat) : Rd α α := fun h =>
  match h a with
  | some v => .ok v
  | none => .error .ub

/-- `for (i = lo; i < hi; ++i)` with a local variable. -/
def foldUp {σ : Type} (lo hi : Nat) (s : σ) (body : σ → Nat → Rd α σ) : Rd α σ :=
  (List.range' lo (hi - lo)).foldlM body s

/-- As a program. -/
def prog (p : Rd α β) : Prog α β := fun h => (p h).map fun b => (b, h)

end Rd

/-- Read `x(i)` of a Kokkos view. -/
def Vec.look {α : Type} (x : Vec) (i : Nat) : Rd α α :=
  if i < x.ext then Rd.cell (x.addr i) else Rd.fail .ub

/-- Read `A(i, j)` of a Kokkos view. -/
def Mat.look {α : Type} (A : Mat) (i j : Nat) : Rd α α :=
  if i < A.rows ∧ j < A.cols then Rd.cell (A.addr i j) else Rd.fail .ub

/-- How a reduction is carried out: chunks of the range, each a list of indices in the order
in which they are visited, joined along a binary tree.  A chunk may be empty. -/
inductive RedTree where
  | chunk (l : List Nat)
  | join (s t : RedTree)

namespace RedTree

/-- All indices visited. -/
def visits : RedTree → List Nat
  | chunk l => l
  | join s t => s.visits ++ t.visits

/-- The largest number of updates and joins on the way from an index to the root. -/
def depth : RedTree → Nat
  | chunk l => l.length
  | join s t => max s.depth t.depth + 1

/-- The value the tree computes: each chunk starts from `e` and is updated by `body`. -/
def eval {α σ : Type} (body : Nat → σ → Rd α σ) (e : σ) (join : σ → σ → σ) : RedTree → Rd α σ
  | chunk l => l.foldlM (fun s i => body i s) e
  | .join s t => do
    let a ← s.eval body e join
    let b ← t.eval body e join
    pure (join a b)

/-- The tree visits each of `0, ..., n-1` once. -/
def Covers (t : RedTree) (n : Nat) : Prop := t.visits.Perm (List.range n)

end RedTree

/-- `Kokkos::parallel_reduce(RangePolicy(exec, 0, n), body, reducer)`: `e` is the identity
value from which every accumulator starts, `join` joins two accumulators. -/
def parReduce {α σ : Type} (n : Nat) (body : Nat → σ → Rd α σ) (e : σ) (join : σ → σ → σ) :
    Sched α σ := fun h r =>
  ∃ t : RedTree, t.Covers n ∧ r = (t.eval body e join).prog h

end StdBLAS

import Verif.Core.Parallel
import Verif.Spec.Memory

/-!
# Specification vocabulary about a call while it runs

* `Task.Reaches`: the states between the call and the return.
* `Mem`: memory in which a cell may hold an indeterminate value.
* `concurrently`: threads that run at the same time.
-/

namespace StdBLAS
variable {α β : Type}

/-- One memory access of a task that runs alone: what is left to do, and the memory. -/
inductive Task.Move : Task α β × Heap α → Task α β × Heap α → Prop where
  | load {a : Nat} {k : α → Task α β} {h : Heap α} {v : α} :
      h a = some v → Move (.load a k, h) (k v, h)
  | store {a : Nat} {k : Task α β} {h : Heap α} {v w : α} :
      h a = some w → Move (.store a v k, h) (k, Function.update h a (some v))

/-- After some number of memory accesses, started in memory `h`, the task `t` has `t'` left to do and
the memory is `h'`. -/
def Task.Reaches (t : Task α β) (h : Heap α) (t' : Task α β) (h' : Heap α) : Prop :=
  Relation.ReflTransGen Task.Move (t, h) (t', h')

/-! ## Indeterminate values -/

/-- A memory cell: it cannot be accessed; it can be accessed but has not been initialised; or it
holds a value. -/
inductive MemCell (α : Type) : Type where
  | absent
  | indeterminate
  | value (v : α)

/-- Memory in which cells may be uninitialised. -/
abbrev Mem (α : Type) : Type := Nat → MemCell α

/-- Running a task in such a memory.  Reading an indeterminate value is undefined behaviour; writing
to the cell is not, and gives it a value. -/
def Task.runMem : Task α β → Mem α → Except Err (β × Mem α)
  | .done b, m => .ok (b, m)
  | .fail e, _ => .error e
  | .load a k, m =>
    match m a with
    | .value v => (k v).runMem m
    | _ => .error .ub
  | .store a v k, m =>
    match m a with
    | .absent => .error .ub
    | _ => k.runMem (Function.update m a (.value v))

/-- `h` is `m` with some value in place of each indeterminate one. -/
def Mem.FilledBy (m : Mem α) (h : Heap α) : Prop :=
  ∀ a, match m a with
    | .absent => h a = none
    | .indeterminate => ∃ v, h a = some v
    | .value v => h a = some v

/-! ## Threads -/

/-- `n` threads that run at the same time, thread `i` doing `body i`, until all have ended: their
memory accesses are interleaved in any way, and two threads about to access the same cell, one of
them to write it, are a data race, which is undefined behaviour. -/
def concurrently (n : Nat) (body : Nat → Task α Unit) : Sched α Unit := parFor n body

end StdBLAS

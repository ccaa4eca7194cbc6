import Verif.Core.Parallel

/-!
# Kernels that run while the host goes on

`Kokkos::parallel_for` may return before the loop has run: the loop is only *submitted* to the
execution space.  This file says what the host program can observe then.

* `Host`: what the host thread does, step by step: submit a kernel, wait for all submitted
  kernels (`fence`), run a reduction and wait for its result, run code of its own, throw.
* `Host.Runs`: what can happen.  At any moment the execution space may run the kernel that was
  submitted first among those still waiting.  Code of the host sees the memory as it is at that moment.
* `Host.sync`: the same steps when every kernel has ended before the host goes on, which is what
  `Model/Kokkos.lean` and `Model/KokkosKernels.lean` describe.

Assumptions about Kokkos, which is not part of the repository: there is one execution space instance and
its kernels run one after the other in the order of submission; `fence` and a reduction into a
number wait for all of them; a library call without result (`KokkosBlas::scal`, `update`, `gemv`, `gemm`,
`trmm`, `trsm`) and `deep_copy` with an execution space argument are only submitted; `deep_copy` without
one waits.
Simplification: code of the host runs before or after a kernel, never in the middle of one.
-/

namespace StdBLAS

/-- What the host thread does. -/
inductive Host (α β : Type) : Type 1 where
  | ret (b : β)
  | throw
  | submit (k : Sched α Unit) (next : Host α β)
  | fence (next : Host α β)
  | wait {γ : Type} (k : Sched α γ) (next : γ → Host α β)
  | local {γ : Type} (p : Prog α γ) (next : γ → Host α β)

namespace Host
variable {α β γ : Type}

/-- Sequential composition. -/
def bind : Host α β → (β → Host α γ) → Host α γ
  | ret b, f => f b
  | throw, _ => throw
  | submit k n, f => submit k (n.bind f)
  | fence n, f => fence (n.bind f)
  | wait k n, f => wait k fun c => (n c).bind f
  | .local p n, f => .local p fun c => (n c).bind f

instance : Monad (Host α) where
  pure := ret
  bind := bind

/-- `Kokkos::parallel_for(...)` and library calls without result: the kernel is submitted. -/
def launch (k : Sched α Unit) : Host α Unit := submit k (ret ())

/-- `ex.fence()`. -/
def fenced : Host α Unit := fence (ret ())

/-- A reduction whose result is a number of the host. -/
def await (k : Sched α γ) : Host α γ := wait k ret

/-- Code of the host. -/
def here (p : Prog α γ) : Host α γ := .local p ret

/-- A sequential loop of the host. -/
def forEach {ι : Type} : List ι → (ι → Host α Unit) → Host α Unit
  | [], _ => pure ()
  | i :: l, body => do body i; forEach l body

/-- The kernels that wait to be run, the first to run first. -/
abbrev Queue (α : Type) : Type := List (Sched α Unit)

/-- `Runs p q h r`: with the kernels `q` waiting and memory `h`, the host program `p` can end with
outcome `r`: an error, or a result together with the kernels that are still waiting then, and
the memory. -/
inductive Runs : Host α β → Queue α → Heap α → Except Err (β × Queue α × Heap α) → Prop where
  | ret {b : β} {q : Queue α} {h : Heap α} : Runs (.ret b) q h (.ok (b, q, h))
  | throw {q : Queue α} {h : Heap α} : Runs .throw q h (.error .exn)
  | submit {k : Sched α Unit} {n : Host α β} {q : Queue α} {h : Heap α}
      {r : Except Err (β × Queue α × Heap α)} :
      Runs n (q ++ [k]) h r → Runs (.submit k n) q h r
  | fence {n : Host α β} {h : Heap α} {r : Except Err (β × Queue α × Heap α)} :
      Runs n [] h r → Runs (.fence n) [] h r
  | wait {γ : Type} {k : Sched α γ} {n : γ → Host α β} {h h' : Heap α} {c : γ}
      {r : Except Err (β × Queue α × Heap α)} :
      k h (.ok (c, h')) → Runs (n c) [] h' r → Runs (.wait k n) [] h r
  | waitError {γ : Type} {k : Sched α γ} {n : γ → Host α β} {h : Heap α} {e : Err} :
      k h (.error e) → Runs (.wait k n) [] h (.error e)
  | local {γ : Type} {p : Prog α γ} {n : γ → Host α β} {q : Queue α} {h h' : Heap α} {c : γ}
      {r : Except Err (β × Queue α × Heap α)} :
      p h = .ok (c, h') → Runs (n c) q h' r → Runs (.local p n) q h r
  | localError {γ : Type} {p : Prog α γ} {n : γ → Host α β} {q : Queue α} {h : Heap α} {e : Err} :
      p h = .error e → Runs (.local p n) q h (.error e)
  | device {p : Host α β} {k : Sched α Unit} {q : Queue α} {h h' : Heap α}
      {r : Except Err (β × Queue α × Heap α)} :
      k h (.ok ((), h')) → Runs p q h' r → Runs p (k :: q) h r
  | deviceError {p : Host α β} {k : Sched α Unit} {q : Queue α} {h : Heap α} {e : Err} :
      k h (.error e) → Runs p (k :: q) h (.error e)

/-- The same steps when every kernel has ended before the host goes on. -/
def sync : Host α β → Sched α β
  | ret b => pure b
  | throw => Sched.throw
  | submit k n => k >>= fun _ => n.sync
  | fence n => n.sync
  | wait k n => k >>= fun c => (n c).sync
  | .local p n => Sched.lift p >>= fun c => (n c).sync

end Host

end StdBLAS

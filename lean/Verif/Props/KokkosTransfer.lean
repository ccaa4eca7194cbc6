import Verif.Lemmas.KokkosTransferCalls
import Verif.Props.KokkosWitness

/-!
# C76, C77: element types and places in the Kokkos backend

For every call of the Kokkos backend whose loops are in the repository, *whatever the schedule*.  The specification is
`Spec/KokkosTransfer.lean`.
-/

namespace StdBLAS
open Witness
variable {α β : Type} [Add α] [Mul α] [Zero α] [ConjOps α] [AbsOps α]
  [Add β] [Mul β] [Zero β] [ConjOps β] [AbsOps β]

/-! ## Other element types -/

/-- **C76** Two calls on the same views, with two element types whose operations respect a relation, can
end in the same ways: each outcome of one under some schedule (an error, a data race, a final memory) is, up to
the relation, an outcome of the other under some schedule. -/
theorem C76_kokkos (rel : α → β → Prop) (hr : RespectsKokkos rel) (c : KCall α) (d : KCall β)
    (hc : KCall.Linked rel (fun a b => a = b) c d) (h : Heap α) (k : Heap β) (hk : Heap.Related rel h k) :
    (∀ r, c.sched h r → ∃ s, d.sched k s ∧ LinkedOutcome rel (fun a b => a = b) Eq r s) ∧
      ∀ s, d.sched k s → ∃ r, c.sched h r ∧ LinkedOutcome rel (fun a b => a = b) Eq r s :=
  linked_calls (by rintro a b a' b' rfl rfl; exact Iff.rfl) hr hc h k (by rintro a b rfl; exact hk a)

/-- The integers in the reals. -/
theorem respectsKokkos_cast : RespectsKokkos fun (a : ℤ) (b : ℝ) => b = (a : ℝ) where
  zero := by norm_num
  add := by rintro a b c d rfl rfl; push_cast; rfl
  mul := by rintro a b c d rfl rfl; push_cast; rfl
  conj := by rintro a b rfl; rfl
  abs := by rintro a b rfl; rfl

/-- A rank-1 update of integers, and of the same numbers as reals. -/
example (h : Heap ℤ) (r : Except Err (Unit × Heap ℤ)) (hr : (KCall.ger kx ky kA).sched h r) :
    ∃ s, (KCall.ger kx ky kA).sched (fun a => (h a).map fun v : ℤ => (v : ℝ)) s ∧
      LinkedOutcome (fun (a : ℤ) (b : ℝ) => b = (a : ℝ)) (fun a b => a = b) Eq r s := by
  refine (C76_kokkos (fun (a : ℤ) (b : ℝ) => b = (a : ℝ)) respectsKokkos_cast (.ger kx ky kA)
    (.ger kx ky kA) (.ger _ _ _ _ _ _ ⟨rfl, fun _ _ => rfl⟩ ⟨rfl, fun _ _ => rfl⟩
      ⟨⟨rfl, rfl, fun _ _ _ _ => rfl⟩, rfl⟩) h _ (fun a => ?_)).1 r hr
  cases h a with
  | none => exact .none
  | some v => exact .some rfl

/-- **C76** If the call with the first type surely ends normally with `Q`, whatever the schedule, then the
call with the second type surely ends normally, in a memory related to one with `Q`. -/
theorem C76_kokkos_surely (rel : α → β → Prop) (hr : RespectsKokkos rel) (c : KCall α) (d : KCall β)
    (hc : KCall.Linked rel (fun a b => a = b) c d) (h : Heap α) (k : Heap β) (hk : Heap.Related rel h k)
    (Q : Heap α → Prop) (hs : Surely c.sched h fun _ h' => Q h') :
    Surely d.sched k fun _ k' => ∃ h', Q h' ∧ Heap.Related rel h' k' := by
  obtain ⟨h1, h2⟩ := C76_kokkos rel hr c d hc h k hk
  obtain ⟨⟨r, hr'⟩, hall⟩ := hs
  obtain ⟨s, hs, _⟩ := h1 r hr'
  refine ⟨⟨s, hs⟩, fun s hs => ?_⟩
  obtain ⟨r, hr', H⟩ := h2 s hs
  obtain ⟨b, h', e, hQ⟩ := hall r hr'
  cases H with
  | error e' => cases e
  | ok a b' h1 k1 _ hl =>
    cases e
    exact ⟨_, _, rfl, _, hQ, fun a => hl a a rfl⟩

/-- The swap of two integer vectors surely ends normally, so the swap of the same vectors of reals does. -/
example (h : Heap ℤ) (Q : Heap ℤ → Prop)
    (hs : Surely (KCall.swap1 (α := ℤ) kx ky).sched h fun _ h' => Q h') :
    Surely (KCall.swap1 (α := ℝ) kx ky).sched (fun a => (h a).map fun v : ℤ => (v : ℝ)) fun _ k' =>
      ∃ h', Q h' ∧ Heap.Related (fun (a : ℤ) (b : ℝ) => b = (a : ℝ)) h' k' := by
  refine C76_kokkos_surely _ respectsKokkos_cast (.swap1 kx ky) (.swap1 kx ky)
    (.swap1 _ _ _ _ ⟨rfl, fun _ _ => rfl⟩ ⟨rfl, fun _ _ => rfl⟩) h _ (fun a => ?_) Q hs
  cases h a with
  | none => exact .none
  | some v => exact .some rfl

/-! ## Other places -/

omit [Add β] [Mul β] [Zero β] [ConjOps β] [AbsOps β] in
theorem respectsKokkos_eq : RespectsKokkos fun a b : α => a = b where
  zero := rfl
  add := by rintro a b c d rfl rfl; rfl
  mul := by rintro a b c d rfl rfl; rfl
  conj := by rintro a b rfl; rfl
  abs := by rintro a b rfl; rfl

omit [Add α] [Mul α] [Zero α] [ConjOps α] [AbsOps α] in
theorem Heap.Moved.linked {p : Nat → Nat → Prop} {h k : Heap α} (H : Heap.Moved p h k) :
    Heap.Linked (fun a b => a = b) p h k := by
  intro a b q
  rw [H a b q]
  cases k b with
  | none => exact .none
  | some v => exact .some rfl

omit [Add α] [Mul α] [Zero α] [ConjOps α] [AbsOps α] in
theorem Heap.Linked.moved {p : Nat → Nat → Prop} {h k : Heap α}
    (H : Heap.Linked (fun a b => a = b) p h k) : Heap.Moved p h k := by
  intro a b q
  have h1 := H a b q
  generalize h a = o at h1
  generalize k b = o' at h1
  cases h1 with
  | none => rfl
  | some e => rw [show _ = _ from e]

omit [Add β] [Mul β] [Zero β] [ConjOps β] [AbsOps β] in
/-- **C77** Two calls on arguments in other places (`p` relates the addresses, one to one) can end in the same
ways: each outcome of one under some schedule is an outcome of the other under some schedule, with the same values
in the cells that correspond. -/
theorem C77_kokkos (p : Nat → Nat → Prop) (hp : OneToOne p) (c d : KCall α)
    (hc : KCall.Linked (fun a b => a = b) p c d) (h k : Heap α) (hk : Heap.Moved p h k) :
    (∀ e, c.sched h (.error e) ↔ d.sched k (.error e)) ∧
    (∀ h', c.sched h (.ok ((), h')) → ∃ k', d.sched k (.ok ((), k')) ∧ Heap.Moved p h' k') ∧
    ∀ k', d.sched k (.ok ((), k')) → ∃ h', c.sched h (.ok ((), h')) ∧ Heap.Moved p h' k' := by
  obtain ⟨h1, h2⟩ := linked_calls hp respectsKokkos_eq hc h k hk.linked
  refine ⟨fun e => ⟨fun hs => ?_, fun hs => ?_⟩, fun h' hs => ?_, fun k' hs => ?_⟩
  · obtain ⟨s, hs', H⟩ := h1 _ hs
    cases H
    exact hs'
  · obtain ⟨s, hs', H⟩ := h2 _ hs
    cases H
    exact hs'
  · obtain ⟨s, hs', H⟩ := h1 _ hs
    cases H with
    | ok a b _ k1 _ hl => exact ⟨k1, hs', hl.moved⟩
  · obtain ⟨s, hs', H⟩ := h2 _ hs
    cases H with
    | ok a b h1 _ _ hl => exact ⟨h1, hs', hl.moved⟩

omit [Add β] [Mul β] [Zero β] [ConjOps β] [AbsOps β] in
/-- A rank-1 update of the column-major matrix in the cells 30..38, and of a row-major matrix in the cells
230..238, the vectors moved by 200. -/
example (h k : Heap α) (hx : ∀ i, i < 3 → h i = k (200 + i)) (hy : ∀ i, i < 3 → h (10 + i) = k (210 + i))
    (hA : ∀ i j, i < 3 → j < 3 → h (30 + i + 3 * j) = k (230 + 3 * i + j)) (e : Err) :
    (KCall.ger kx ky kA).sched h (.error e) ↔
      (KCall.ger ⟨3, 200, 1⟩ ⟨3, 210, 1⟩ ⟨⟨3, 3, fun i j => 230 + 3 * i + j⟩, false⟩).sched k
        (.error e) := by
  refine (C77_kokkos (fun a b => (a < 3 ∧ b = 200 + a) ∨ (10 ≤ a ∧ a < 13 ∧ b = 200 + a) ∨
      ∃ i j, i < 3 ∧ j < 3 ∧ a = 30 + i + 3 * j ∧ b = 230 + 3 * i + j) ?_ (.ger kx ky kA)
    (.ger ⟨3, 200, 1⟩ ⟨3, 210, 1⟩ ⟨⟨3, 3, fun i j => 230 + 3 * i + j⟩, false⟩)
    (.ger _ _ _ _ _ _ ⟨rfl, fun i hi => ?_⟩ ⟨rfl, fun i hi => ?_⟩
      ⟨⟨rfl, rfl, fun i j hi hj => ?_⟩, rfl⟩) h k ?_).1 e
  · rintro a b a' b' (h1 | h1 | ⟨i, j, h1, h2, h3, h4⟩) (h1' | h1' | ⟨i', j', h1', h2', h3', h4'⟩) <;> omega
  · simp only [kx, KVec.view] at *
    exact .inl ⟨by omega, by omega⟩
  · simp only [ky, KVec.view] at *
    exact .inr (.inl ⟨by omega, by omega, by omega⟩)
  · simp only [kA, A] at *
    exact .inr (.inr ⟨i, j, hi, hj, by omega, by omega⟩)
  · rintro a b (⟨h1, rfl⟩ | ⟨h1, h2, rfl⟩ | ⟨i, j, h1, h2, rfl, rfl⟩)
    · exact hx a h1
    · have := hy (a - 10) (by omega)
      rwa [show 10 + (a - 10) = a by omega, show 210 + (a - 10) = 200 + a by omega] at this
    · exact hA i j h1 h2

omit [Add β] [Mul β] [Zero β] [ConjOps β] [AbsOps β] in
/-- **C77** If the call surely ends normally whatever the schedule, with `Q`, so does the call on arguments in
other places; in particular that no schedule has a data race does not depend on the layouts. -/
theorem C77_kokkos_surely (p : Nat → Nat → Prop) (hp : OneToOne p) (c d : KCall α)
    (hc : KCall.Linked (fun a b => a = b) p c d) (h k : Heap α) (hk : Heap.Moved p h k) (Q : Heap α → Prop)
    (hs : Surely c.sched h fun _ h' => Q h') :
    Surely d.sched k fun _ k' => ∃ h', Q h' ∧ Heap.Moved p h' k' := by
  obtain ⟨h0, h1, h2⟩ := C77_kokkos p hp c d hc h k hk
  obtain ⟨⟨r, hr'⟩, hall⟩ := hs
  obtain ⟨_, h', rfl, _⟩ := hall r hr'
  obtain ⟨k', hk', _⟩ := h1 h' hr'
  refine ⟨⟨_, hk'⟩, fun s hs => ?_⟩
  cases s with
  | error e =>
    obtain ⟨_, _, e', _⟩ := hall _ ((h0 e).2 hs)
    cases e'
  | ok s =>
    obtain ⟨_, k1⟩ := s
    obtain ⟨h3, hh3, hm⟩ := h2 k1 hs
    obtain ⟨_, _, e', hQ⟩ := hall _ hh3
    cases e'
    exact ⟨_, _, rfl, _, hQ, hm⟩

omit [Add β] [Mul β] [Zero β] [ConjOps β] [AbsOps β] in
/-- `kkGer` on cells 0.., and the same 100 cells further. -/
example (h : Heap α) (Q : Heap α → Prop) (hs : Surely (KCall.ger kx ky kA).sched h fun _ h' => Q h') :
    Surely (KCall.ger ⟨3, 100, 1⟩ ⟨3, 110, 1⟩ ⟨⟨3, 3, fun i j => 100 + A.addr i j⟩, false⟩).sched
      (fun b => if 100 ≤ b then h (b - 100) else none) fun _ k' =>
        ∃ h', Q h' ∧ Heap.Moved (fun a b => b = 100 + a) h' k' := by
  refine C77_kokkos_surely (fun a b => b = 100 + a) ?_ (.ger kx ky kA)
    (.ger ⟨3, 100, 1⟩ ⟨3, 110, 1⟩ ⟨⟨3, 3, fun i j => 100 + A.addr i j⟩, false⟩)
    (.ger _ _ _ _ _ _ ⟨rfl, fun i _ => ?_⟩ ⟨rfl, fun i _ => ?_⟩ ⟨⟨rfl, rfl, fun i j _ _ => rfl⟩, rfl⟩)
    h _ ?_ Q hs
  · intro a b a' b' e1 e2
    omega
  · simp only [kx, KVec.view]
    omega
  · simp only [ky, KVec.view]
    omega
  · rintro a b rfl
    beta_reduce
    rw [if_pos (by omega), Nat.add_sub_cancel_left]

end StdBLAS

import Mathlib.Algebra.BigOperators.Intervals
import Mathlib.Algebra.BigOperators.Group.Finset.Basic
import Mathlib.Algebra.Order.BigOperators.Group.Finset
import Mathlib.Tactic.Ring
import Verif.Lemmas.Parallel
import Verif.Model.Calls
import Verif.Spec.Cost

/-!
# Lemmas about the number of accesses
-/

namespace StdBLAS
variable {α β γ : Type}

/-- Whatever values are read, the task makes `r` reads and `w` writes, or fails before. -/
inductive Task.Costs : Task α β → Nat → Nat → Prop where
  | done (b : β) : Costs (.done b) 0 0
  | fail (e : Err) (r w : Nat) : Costs (.fail e) r w
  | load (a : Nat) (k : α → Task α β) (r w : Nat) (hk : ∀ v, Costs (k v) r w) :
      Costs (.load a k) (r + 1) w
  | store (a : Nat) (v : α) (k : Task α β) (r w : Nat) (hk : Costs k r w) :
      Costs (.store a v k) r (w + 1)

/-- Whatever values are read, the task makes at most `r` reads and `w` writes. -/
inductive Task.CostsLe : Task α β → Nat → Nat → Prop where
  | done (b : β) (r w : Nat) : CostsLe (.done b) r w
  | fail (e : Err) (r w : Nat) : CostsLe (.fail e) r w
  | load (a : Nat) (k : α → Task α β) (r w : Nat) (hk : ∀ v, CostsLe (k v) r w) :
      CostsLe (.load a k) (r + 1) w
  | store (a : Nat) (v : α) (k : Task α β) (r w : Nat) (hk : CostsLe k r w) :
      CostsLe (.store a v k) r (w + 1)

namespace Task

@[simp] theorem trace_load_some {a : Nat} {k : α → Task α β} {h : Heap α} {v : α}
    (hv : h a = some v) : (Task.load a k).trace h = .read a :: (k v).trace h := by
  simp [trace, hv]

theorem Costs.performs {p : Task α β} {r w : Nat} (hp : p.Costs r w) (h : Heap α) :
    Performs p h r w := by
  induction hp generalizing h with
  | done b => exact ⟨by simp [reads, trace], by simp [writes, trace], fun _ _ _ => by
      simp [reads, writes, trace]⟩
  | fail e r w =>
    exact ⟨by simp [reads, trace], by simp [writes, trace], fun _ _ hr => by
      simp [run, Prog.fail] at hr⟩
  | load a k r w hk ih =>
    cases hv : h a with
    | none =>
      refine ⟨by simp [reads, trace, hv], by simp [writes, trace, hv], fun b h' hr => ?_⟩
      simp [run, Bind.bind, Prog.seq, Prog.load, hv] at hr
    | some v =>
      obtain ⟨i1, i2, i3⟩ := ih v h
      refine ⟨?_, ?_, fun b h' hr => ?_⟩
      · simpa [reads, trace, hv, List.countP_cons, Access.isRead] using i1
      · simpa [writes, trace, hv, List.countP_cons, Access.isWrite] using i2
      · have : (k v).run h = .ok (b, h') := by
          simpa [run, Bind.bind, Prog.seq, Prog.load, hv] using hr
        have := i3 b h' this
        simpa [reads, writes, trace, hv, List.countP_cons, Access.isRead, Access.isWrite] using this
  | store a v k r w hk ih =>
    cases hv : h a with
    | none =>
      refine ⟨by simp [reads, trace, hv], by simp [writes, trace, hv], fun b h' hr => ?_⟩
      simp [run, Bind.bind, Prog.seq, Prog.store, hv] at hr
    | some u =>
      obtain ⟨i1, i2, i3⟩ := ih (Function.update h a (some v))
      refine ⟨?_, ?_, fun b h' hr => ?_⟩
      · simpa [reads, trace, hv, List.countP_cons, Access.isRead] using i1
      · simpa [writes, trace, hv, List.countP_cons, Access.isWrite] using i2
      · have : k.run (Function.update h a (some v)) = .ok (b, h') := by
          simpa [run, Bind.bind, Prog.seq, Prog.store, hv] using hr
        have := i3 b h' this
        simpa [reads, writes, trace, hv, List.countP_cons, Access.isRead, Access.isWrite] using this

theorem CostsLe.bound {p : Task α β} {r w : Nat} (hp : p.CostsLe r w) (h : Heap α) :
    p.reads h ≤ r ∧ p.writes h ≤ w := by
  induction hp generalizing h with
  | done b => simp [reads, writes, trace]
  | fail e r w => simp [reads, writes, trace]
  | load a k r w hk ih =>
    cases hv : h a with
    | none => simp [reads, writes, trace, hv]
    | some v => simpa [reads, writes, trace, hv, List.countP_cons, Access.isRead, Access.isWrite] using ih v h
  | store a v k r w hk ih =>
    cases hv : h a with
    | none => simp [reads, writes, trace, hv]
    | some u =>
      simpa [reads, writes, trace, hv, List.countP_cons, Access.isRead, Access.isWrite]
        using ih (Function.update h a (some v))

theorem Costs.congr {p : Task α β} {r r' w w' : Nat} (hp : p.Costs r w) (hr : r = r')
    (hw : w = w') : p.Costs r' w' := hr ▸ hw ▸ hp

theorem Costs.pure (b : β) : (Pure.pure b : Task α β).Costs 0 0 := .done b

theorem Costs.bind {p : Task α β} {f : β → Task α γ} {r r' w w' : Nat} (hp : p.Costs r w)
    (hf : ∀ b, (f b).Costs r' w') : (p >>= f).Costs (r + r') (w + w') := by
  change (p.bind f).Costs _ _
  induction hp with
  | done b => simpa [Task.bind] using hf b
  | fail e r w => exact .fail _ _ _
  | load a k r w hk ih =>
    rw [show r + 1 + r' = r + r' + 1 by omega]
    exact .load _ _ _ _ ih
  | store a v k r w hk ih =>
    rw [show w + 1 + w' = w + w' + 1 by omega]
    exact .store _ _ _ _ _ ih

theorem Costs.forEach {ι : Type} {l : List ι} {body : ι → Task α Unit} {r w : ι → Nat}
    (hb : ∀ i ∈ l, (body i).Costs (r i) (w i)) :
    (Task.forEach l body).Costs (l.map r).sum (l.map w).sum := by
  induction l with
  | nil => exact .done _
  | cons i l ih =>
    simp only [List.map_cons, List.sum_cons]
    exact (hb i (by simp)).bind fun _ => ih fun j hj => hb j (by simp [hj])

theorem Costs.foldEach {ι σ : Type} {l : List ι} {s : σ} {body : σ → ι → Task α σ} {r w : ι → Nat}
    (hb : ∀ i ∈ l, ∀ s, (body s i).Costs (r i) (w i)) :
    (Task.foldEach l s body).Costs (l.map r).sum (l.map w).sum := by
  induction l generalizing s with
  | nil => exact .done _
  | cons i l ih =>
    simp only [List.map_cons, List.sum_cons]
    exact (hb i (by simp) s).bind fun _ => ih fun j hj => hb j (by simp [hj])

theorem sum_map_range' (lo n : Nat) (f : Nat → Nat) :
    ((List.range' lo n).map f).sum = ∑ i ∈ Finset.range n, f (lo + i) := by
  induction n generalizing lo with
  | zero => simp
  | succ n ih =>
    rw [List.range'_succ, List.map_cons, List.sum_cons, ih, Finset.sum_range_succ']
    simp only [Nat.add_zero]
    rw [Nat.add_comm]
    congr 1
    exact Finset.sum_congr rfl fun i _ => by congr 1; omega

theorem Costs.forUp {lo hi : Nat} {body : Nat → Task α Unit} {r w : Nat → Nat}
    (hb : ∀ i, lo ≤ i → i < hi → (body i).Costs (r i) (w i)) :
    (Task.forUp lo hi body).Costs (∑ i ∈ Finset.range (hi - lo), r (lo + i))
      (∑ i ∈ Finset.range (hi - lo), w (lo + i)) := by
  rw [← sum_map_range', ← sum_map_range']
  refine Costs.forEach fun i hi => hb i ?_ ?_ <;> (rw [List.mem_range'_1] at hi; omega)

theorem Costs.foldUp {σ : Type} {lo n : Nat} {s : σ} {body : σ → Nat → Task α σ} {r w : Nat → Nat}
    (hb : ∀ i, lo ≤ i → i < lo + n → ∀ s, (body s i).Costs (r i) (w i)) :
    (Task.foldEach (List.range' lo n) s body).Costs (∑ i ∈ Finset.range n, r (lo + i))
      (∑ i ∈ Finset.range n, w (lo + i)) := by
  rw [← sum_map_range', ← sum_map_range']
  refine Costs.foldEach fun i hi s => hb i ?_ ?_ s <;> (rw [List.mem_range'_1] at hi; omega)

theorem Costs.forDown {n : Nat} {body : Nat → Task α Unit} {r w : Nat → Nat}
    (hb : ∀ i, i < n → (body i).Costs (r i) (w i)) :
    (Task.forDown n body).Costs (∑ i ∈ Finset.range n, r i) (∑ i ∈ Finset.range n, w i) := by
  have h := Costs.forEach (l := (List.range n).reverse) (body := body) (r := r) (w := w)
    fun i hi => hb i (by simpa using hi)
  have e : ∀ f : Nat → Nat, ((List.range n).reverse.map f).sum = ∑ i ∈ Finset.range n, f i := by
    intro f
    rw [List.map_reverse, List.sum_reverse, List.range_eq_range', sum_map_range']
    simp
  rwa [e, e] at h

theorem CostsLe.mono {p : Task α β} {r r' w w' : Nat} (hp : p.CostsLe r w) (hr : r ≤ r')
    (hw : w ≤ w') : p.CostsLe r' w' := by
  induction hp generalizing r' w' with
  | done b => exact .done _ _ _
  | fail e r w => exact .fail _ _ _
  | load a k r w hk ih =>
    obtain ⟨r', rfl⟩ : ∃ q, r' = q + 1 := ⟨r' - 1, by omega⟩
    exact .load _ _ _ _ fun v => ih v (by omega) hw
  | store a v k r w hk ih =>
    obtain ⟨w', rfl⟩ : ∃ q, w' = q + 1 := ⟨w' - 1, by omega⟩
    exact .store _ _ _ _ _ (ih hr (by omega))

theorem Costs.le {p : Task α β} {r r' w w' : Nat} (hp : p.Costs r w) (hr : r ≤ r') (hw : w ≤ w') :
    p.CostsLe r' w' := by
  refine CostsLe.mono ?_ hr hw
  clear hr hw
  induction hp with
  | done b => exact .done _ _ _
  | fail e r w => exact .fail _ _ _
  | load a k r w hk ih => exact .load _ _ _ _ ih
  | store a v k r w hk ih => exact .store _ _ _ _ _ ih

theorem CostsLe.bind {p : Task α β} {f : β → Task α γ} {r r' w w' : Nat} (hp : p.CostsLe r w)
    (hf : ∀ b, (f b).CostsLe r' w') : (p >>= f).CostsLe (r + r') (w + w') := by
  change (p.bind f).CostsLe _ _
  induction hp with
  | done b => exact (hf b).mono (by omega) (by omega)
  | fail e r w => exact .fail _ _ _
  | load a k r w hk ih =>
    rw [show r + 1 + r' = r + r' + 1 by omega]
    exact .load _ _ _ _ ih
  | store a v k r w hk ih =>
    rw [show w + 1 + w' = w + w' + 1 by omega]
    exact .store _ _ _ _ _ ih

theorem CostsLe.foldEach {ι σ : Type} {l : List ι} {s : σ} {body : σ → ι → Task α σ} {r w : Nat}
    (hb : ∀ s i, (body s i).CostsLe r w) :
    (Task.foldEach l s body).CostsLe (l.length * r) (l.length * w) := by
  induction l generalizing s with
  | nil => exact .done _ _ _
  | cons i l ih =>
    have := (hb s i).bind fun s' => ih (s := s')
    refine this.mono ?_ ?_ <;> (rw [List.length_cons, Nat.succ_mul, Nat.add_comm])

end Task

theorem Vec.rd_costs (x : Vec) (i : Nat) : (x.rd i : Task α α).Costs 1 0 := by
  unfold Vec.rd
  split
  · exact .load _ _ 0 0 fun _ => .done _
  · exact .fail _ _ _

theorem Mat.rd_costs (A : Mat) (i j : Nat) : (A.rd i j : Task α α).Costs 1 0 := by
  unfold Mat.rd
  split
  · exact .load _ _ 0 0 fun _ => .done _
  · exact .fail _ _ _

theorem VecV.rd_costs (x : VecV α) (i : Nat) : (x.rd i).Costs 1 0 :=
  (Vec.rd_costs x.toVec i).bind fun _ => .done _

theorem MatV.rd_costs (A : MatV α) (i j : Nat) : (A.rd i j).Costs 1 0 :=
  (Mat.rd_costs A.toMat i j).bind fun _ => .done _

theorem Vec.wr_costs (x : Vec) (i : Nat) (v : α) : (x.wr i v).Costs 0 1 := by
  unfold Vec.wr
  split
  · exact .store _ _ _ 0 0 (.done _)
  · exact .fail _ _ _

theorem Mat.wr_costs (A : Mat) (i j : Nat) (v : α) : (A.wr i j v).Costs 0 1 := by
  unfold Mat.wr
  split
  · exact .store _ _ _ 0 0 (.done _)
  · exact .fail _ _ _

theorem Vec.plus_costs [Add α] (y : Vec) (i : Nat) (v : α) : (y.plus i v).Costs 1 1 :=
  (Vec.rd_costs y i).bind fun _ => Vec.wr_costs y i _

theorem Mat.plus_costs [Add α] (C : Mat) (i j : Nat) (v : α) : (C.plus i j v).Costs 1 1 :=
  (Mat.rd_costs C i j).bind fun _ => Mat.wr_costs C i j _

theorem Task.ite_costs {c : Prop} [Decidable c] {p q : Task α β} {r w : Nat}
    (hp : p.Costs r w) (hq : q.Costs r w) : (if c then p else q).Costs r w := by
  split
  · exact hp
  · exact hq

theorem MatV.rd_map_costs (A : MatV α) (i j : Nat) (f : α → α) :
    (do let a ← A.rd i j; pure (f a) : Task α α).Costs 1 0 :=
  (MatV.rd_costs A i j).bind fun _ => .done _

/-- Costs of a body without value-dependent branches. -/
macro "costs" : tactic => `(tactic|
  repeat' first
    | with_reducible exact Task.Costs.pure _
    | with_reducible exact Vec.rd_costs _ _
    | with_reducible exact Mat.rd_costs _ _ _
    | with_reducible exact VecV.rd_costs _ _
    | with_reducible exact MatV.rd_costs _ _ _
    | with_reducible exact Vec.wr_costs _ _ _
    | with_reducible exact Mat.wr_costs _ _ _ _
    | with_reducible exact Vec.plus_costs _ _ _
    | with_reducible exact Mat.plus_costs _ _ _ _
    | (with_reducible apply Task.Costs.forUp; intro _ _ _)
    | (with_reducible apply Task.Costs.foldUp; intro _ _ _ _)
    | (with_reducible apply Task.Costs.forDown; intro _ _)
    | with_reducible exact MatV.rd_map_costs _ _ _ _
    | with_reducible apply Task.ite_costs
    | (with_reducible apply Task.Costs.bind)
    | (intro _))

theorem sum_range_pairs (n : Nat) : ∑ i ∈ Finset.range n, i = pairs n := Finset.sum_range_id n

theorem sum_range_pairs_down (n : Nat) : ∑ i ∈ Finset.range n, (n - (i + 1)) = pairs n := by
  rw [← sum_range_pairs, ← Finset.sum_range_reflect]
  exact Finset.sum_congr rfl fun i hi => by have := Finset.mem_range.1 hi; omega

theorem sum_range_pairs_from (n : Nat) : ∑ i ∈ Finset.range n, (n - i) = pairs n + n := by
  have : ∑ i ∈ Finset.range n, (n - i) = ∑ i ∈ Finset.range n, ((n - (i + 1)) + 1) :=
    Finset.sum_congr rfl fun i hi => by have := Finset.mem_range.1 hi; omega
  rw [this, Finset.sum_add_distrib, sum_range_pairs_down]
  simp

theorem sum_range_pairs_flip (n : Nat) :
    ∑ i ∈ Finset.range n, (n - (n - (i + 1) + 1)) = pairs n := by
  rw [← sum_range_pairs]
  exact Finset.sum_congr rfl fun i hi => by have := Finset.mem_range.1 hi; omega

theorem two_pairs (n : Nat) : 2 * pairs n + n = n * n := by
  rw [← sum_range_pairs, Nat.mul_comm, Finset.sum_range_id_mul_two]
  cases n with
  | zero => rfl
  | succ n => simp; ring

/-- Number of accesses of an algorithm: the costs of its loops, summed. -/
macro "count" h:ident : tactic => `(tactic| (
  apply Task.Costs.congr
  · costs
  all_goals (
    simp only [$h:ident, Finset.sum_const, Finset.card_range, smul_eq_mul, Nat.sub_zero, Nat.zero_add,
      Nat.add_zero, Nat.mul_zero, Nat.mul_one, Nat.zero_mul, Nat.one_mul, if_true, if_false,
      reduceCtorEq, Nat.add_sub_cancel,
      mul_add, Finset.sum_add_distrib, ← Finset.mul_sum, ← Finset.sum_mul, sum_range_pairs,
      sum_range_pairs_down, sum_range_pairs_from, sum_range_pairs_flip]
    try (first | ring1 | (ring_nf; rw [← Finset.mul_sum, sum_range_pairs])))))

end StdBLAS

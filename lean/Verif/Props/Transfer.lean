import Mathlib.Analysis.Calculus.Deriv.Add
import Mathlib.Analysis.Calculus.Deriv.Mul
import Mathlib.Tactic.Positivity
import Mathlib.Tactic.NormNum
import Verif.Lemmas.TransferCalls
import Verif.Props.Witness
import Verif.Spec.TransferTypes

/-!
# Property C76: an element type matters only through its operations

`C76_transfer` is about any two element types, the others are about pairs of types that users have.
-/

namespace StdBLAS
open Witness
variable {α β R S : Type}
  [Add α] [Sub α] [Mul α] [Div α] [Zero α] [ConjOps α]
  [Add β] [Sub β] [Mul β] [Div β] [Zero β] [ConjOps β]
  [Zero R] [One R] [Add R] [Mul R] [Div R] [FloatOps R] [MagOps α R]
  [Zero S] [One S] [Add S] [Mul S] [Div S] [FloatOps S] [MagOps β S]

/-- **C76** Two calls of the same algorithm on the same cells, for two element types whose operations
respect a relation, in memories with related values, end with the same error or leave memories with
related values.  No law is assumed about any operation. -/
theorem C76_transfer (rel : α → β → Prop) (srel : R → S → Prop) (H : Respects rel)
    (c : Call α R) (c' : Call β S) (hN : c.IsNorm → RespectsNorms rel srel)
    (hD : c.Divides → RespectsDiv rel) (hc : Call.Related rel srel c c')
    (h : Heap α) (k : Heap β) (hh : Heap.Related rel h k) :
    DoSame rel (fun _ _ => True) c.prog c'.prog h k :=
  related_prog H hN hD hc h k hh

/-! ### Views that every relation respects -/

omit [Add α] [Sub α] [Mul α] [Div α] [Zero α] [ConjOps α] [Add β] [Sub β] [Mul β] [Div β] [Zero β]
  [ConjOps β] in
theorem view_related (rel : α → β → Prop) (v : Vec) : VecV.Related rel v.view v.view := ⟨rfl, id⟩

omit [Add α] [Sub α] [Mul α] [Div α] [Zero α] [ConjOps α] [Add β] [Sub β] [Mul β] [Div β] [Zero β]
  [ConjOps β] in
theorem mview_related (rel : α → β → Prop) (m : Mat) : MatV.Related rel m.view m.view := ⟨rfl, id⟩

omit [Add α] [Sub α] [Div α] [Zero α] [ConjOps α] [Add β] [Sub β] [Div β] [Zero β] [ConjOps β] in
theorem scaled_related {rel : α → β → Prop}
    (hmul : ∀ {a b c d}, rel a b → rel c d → rel (a * c) (b * d)) {s : α} {t : β} (hst : rel s t)
    {x : VecV α} {y : VecV β} (hx : VecV.Related rel x y) :
    VecV.Related rel (x.scaled s) (y.scaled t) := ⟨hx.same, fun h => hmul hst (hx.acc h)⟩

/-! ### Homomorphisms -/

/-- **C76** If `φ` commutes with the operations of the element types, then converting all values
before the call or after it makes no difference: not to the memory, and not to the error. -/
theorem C76_homomorphism (φ : α → β) (srel : R → S → Prop) (H : Respects fun a b => φ a = b)
    (c : Call α R) (c' : Call β S) (hN : c.IsNorm → RespectsNorms (fun a b => φ a = b) srel)
    (hD : c.Divides → ∀ a b, φ (a / b) = φ a / φ b)
    (hc : Call.Related (fun a b => φ a = b) srel c c') (h : Heap α) :
    c'.prog (h.mapped φ) = (c.prog h).map fun r => ((), r.2.mapped φ) := by
  have hrel : Heap.Related (fun a b => φ a = b) h (h.mapped φ) := fun a => by
    unfold Heap.mapped
    cases h a with
    | none => exact .none
    | some v => exact .some rfl
  rcases C76_transfer _ srel H c c' hN (fun hd => fun {a b x y} e1 e2 => by
    rw [hD hd, e1, e2]) hc h _ hrel with ⟨e, e1, e2⟩ | ⟨_, _, h', k', e1, e2, _, hk⟩
  · rw [e1, e2]; rfl
  · rw [e1, e2]
    have : k' = h'.mapped φ := by
      funext a
      have ha := hk a
      unfold Heap.mapped
      cases e3 : h' a <;> cases e4 : k' a <;> rw [e3, e4] at ha
      · rfl
      · cases ha
      · cases ha
      · cases ha with
        | some e => rw [← e]; rfl
    rw [this]
    rfl

/-- Integers as real numbers: `symmetric_matrix_product` of integers, with a scaled argument. -/
example (h : Heap ℤ) (t : Triangle) :
    (Call.symv (R := ℝ) A.view t (x.view.scaled (3 : ℝ)) y).prog (h.mapped fun z : ℤ => (z : ℝ)) =
      ((Call.symv (R := ℝ) A.view t (x.view.scaled (3 : ℤ)) y).prog h).map fun r =>
        ((), r.2.mapped fun z : ℤ => (z : ℝ)) := by
  have H : Respects fun (a : ℤ) (b : ℝ) => (a : ℝ) = b :=
    { zero := Int.cast_zero
      add := fun e1 e2 => by rw [Int.cast_add, e1, e2]
      sub := fun e1 e2 => by rw [Int.cast_sub, e1, e2]
      mul := fun e1 e2 => by rw [Int.cast_mul, e1, e2]
      conj := fun e => e
      re := fun e => e }
  exact C76_homomorphism _ (fun _ _ => True) H _ _ (by exact False.elim) (by exact False.elim)
    (.symv _ _ _ _ _ _ (mview_related _ A)
      (scaled_related H.mul (by exact Int.cast_ofNat 3) (view_related _ x))) h

/-- **C76** Packs: each lane of the result is the result of the call on that lane (division and
conjugation included), and a call on packs has an error exactly if the call on a lane has it. -/
theorem C76_lanes {ι : Type} (l : ι) {R' : Type} [Zero R'] [One R'] [Add R'] [Mul R'] [Div R']
    [FloatOps R'] [MagOps (ι → α) R'] (c : Call (ι → α) R') (c' : Call α R) (hN : ¬ c.IsNorm)
    (hc : Call.Related (fun p a => p l = a) (fun _ _ => True) c c') (h : Heap (ι → α)) :
    c'.prog (h.mapped fun p => p l) = (c.prog h).map fun r => ((), r.2.mapped fun p => p l) :=
  C76_homomorphism (fun p => p l) (fun _ _ => True)
    { zero := rfl
      add := fun e1 e2 => by rw [← e1, ← e2]; rfl
      sub := fun e1 e2 => by rw [← e1, ← e2]; rfl
      mul := fun e1 e2 => by rw [← e1, ← e2]; rfl
      conj := fun e => by rw [← e]; rfl
      re := fun e => by rw [← e]; rfl }
    c c' (fun hn => absurd hn hN) (fun _ _ _ => rfl) hc h

/-- A triangular solve with packs of four rational numbers. -/
example (t : Triangle) (d : Diag) (l : Fin 4) (h : Heap (Fin 4 → ℚ)) [MagOps ℚ ℝ]
    [MagOps (Fin 4 → ℚ) ℝ] :
    (Call.trsm (R := ℝ) (A.view : MatV ℚ) t d .left T.view T).prog (h.mapped fun p => p l) =
      ((Call.trsm (R := ℝ) (A.view : MatV (Fin 4 → ℚ)) t d .left T.view T).prog h).map fun r =>
        ((), r.2.mapped fun p => p l) :=
  C76_lanes l _ _ (by exact id) (.trsm _ _ _ _ _ _ _ _ (mview_related _ A) (mview_related _ T)) h

/-! ### Real numbers as complex numbers -/

/-- **C76** Real data in complex numbers: every algorithm, norms included, does to complex numbers
with imaginary part zero what it does to real numbers. -/
theorem C76_real_in_complex (c : Call ℝ ℝ) (c' : Call ℂ ℝ)
    (hc : Call.Related (fun (a : ℝ) (z : ℂ) => (a : ℂ) = z) (fun a b => a = b) c c') (h : Heap ℝ) :
    c'.prog (h.mapped fun a : ℝ => (a : ℂ)) =
      (c.prog h).map fun r => ((), r.2.mapped fun a : ℝ => (a : ℂ)) := by
  refine C76_homomorphism (fun a : ℝ => (a : ℂ)) (fun a b => a = b) ?_ c c' (fun _ => ?_)
    (fun _ a b => Complex.ofReal_div a b) hc h
  · exact
      { zero := Complex.ofReal_zero
        add := fun e1 e2 => by rw [← e1, ← e2]; exact Complex.ofReal_add _ _
        sub := fun e1 e2 => by rw [← e1, ← e2]; exact Complex.ofReal_sub _ _
        mul := fun e1 e2 => by rw [← e1, ← e2]; exact Complex.ofReal_mul _ _
        conj := fun e => by rw [← e]; exact (Complex.conj_ofReal _).symm
        re := fun e => by rw [← e]; rfl }
  · have habs : ∀ a : ℝ, (MagOps.abs a : ℝ) = MagOps.abs (a : ℂ) :=
      fun a => (Complex.norm_real a).symm
    have hre : ∀ a : ℝ, (MagOps.absRe (a : ℂ) : ℝ) = MagOps.abs a := fun a => rfl
    have him : ∀ a : ℝ, (MagOps.absIm (a : ℂ) : ℝ) = 0 := fun a => abs_zero
    exact
      { zero := rfl
        one := rfl
        add := fun e1 e2 => by rw [e1, e2]
        mul := fun e1 e2 => by rw [e1, e2]
        div := fun e1 e2 => by rw [e1, e2]
        sqrt := fun e => by rw [e]
        lt := fun e1 e2 => by rw [e1, e2]
        ne := fun e1 e2 => by rw [e1, e2]
        abs := fun {a b} e => by rw [← e]; exact habs a
        addMagnitude := fun {s t a b} e1 e2 => by
          rw [e1, ← e2]
          change t + MagOps.abs a = t + MagOps.absRe (a : ℂ) + MagOps.absIm (a : ℂ)
          rw [hre, him, add_zero]
        idxMagnitude := fun {a b} e => by
          rw [← e]
          change MagOps.abs a = MagOps.absRe (a : ℂ) + MagOps.absIm (a : ℂ)
          rw [hre, him, add_zero] }

example (h : Heap ℝ) (out : Nat) :
    (Call.absSum (x.view : VecV ℂ) (1 : ℝ) (fun r => (r : ℂ)) out).prog
        (h.mapped fun a : ℝ => (a : ℂ)) =
      ((Call.absSum (x.view : VecV ℝ) (1 : ℝ) (fun r => r) out).prog h).map fun r =>
        ((), r.2.mapped fun a : ℝ => (a : ℂ)) :=
  C76_real_in_complex _ _ (.absSum _ _ _ _ _ _ _ (view_related _ x) rfl fun e => by rw [e]) h

/-- **C76** If all complex inputs are replaced by their conjugates, so are all results; norms do not
change. -/
theorem C76_conjugate_data (c c' : Call ℂ ℝ)
    (hc : Call.Related (fun z w : ℂ => (starRingEnd ℂ) z = w) (fun a b => a = b) c c')
    (h : Heap ℂ) :
    c'.prog (h.mapped (starRingEnd ℂ)) =
      (c.prog h).map fun r => ((), r.2.mapped (starRingEnd ℂ)) := by
  refine C76_homomorphism (starRingEnd ℂ) (fun a b => a = b) ?_ c c' (fun _ => ?_)
    (fun _ a b => map_div₀ _ a b) hc h
  · exact
      { zero := map_zero _
        add := fun e1 e2 => by rw [map_add, e1, e2]
        sub := fun e1 e2 => by rw [map_sub, e1, e2]
        mul := fun e1 e2 => by rw [map_mul, e1, e2]
        conj := fun e => by rw [← e]; rfl
        re := fun {a b} e => by
          rw [← e, re_complex, re_complex, Complex.conj_ofReal, Complex.conj_re] }
  · have habs : ∀ a : ℂ, (MagOps.abs a : ℝ) = MagOps.abs ((starRingEnd ℂ) a) :=
      fun a => (Complex.norm_conj a).symm
    have hre : ∀ a : ℂ, (MagOps.absRe ((starRingEnd ℂ) a) : ℝ) = MagOps.absRe a := fun a => by
      change |((starRingEnd ℂ) a).re| = |a.re|
      rw [Complex.conj_re]
    have him : ∀ a : ℂ, (MagOps.absIm ((starRingEnd ℂ) a) : ℝ) = MagOps.absIm a := fun a => by
      change |((starRingEnd ℂ) a).im| = |a.im|
      rw [Complex.conj_im, abs_neg]
    exact
      { zero := rfl
        one := rfl
        add := fun e1 e2 => by rw [e1, e2]
        mul := fun e1 e2 => by rw [e1, e2]
        div := fun e1 e2 => by rw [e1, e2]
        sqrt := fun e => by rw [e]
        lt := fun e1 e2 => by rw [e1, e2]
        ne := fun e1 e2 => by rw [e1, e2]
        abs := fun {a b} e => by rw [← e]; exact habs a
        addMagnitude := fun {s t a b} e1 e2 => by
          rw [e1, ← e2]
          change t + MagOps.absRe a + MagOps.absIm a =
            t + MagOps.absRe ((starRingEnd ℂ) a) + MagOps.absIm ((starRingEnd ℂ) a)
          rw [hre, him]
        idxMagnitude := fun {a b} e => by
          rw [← e]
          change MagOps.absRe a + MagOps.absIm a =
            MagOps.absRe ((starRingEnd ℂ) a) + MagOps.absIm ((starRingEnd ℂ) a)
          rw [hre, him] }

example (h : Heap ℂ) (t : Triangle) :
    (Call.hemv (R := ℝ) (A.view : MatV ℂ) t (x.view.scaled (-Complex.I)) y).prog
        (h.mapped (starRingEnd ℂ)) =
      ((Call.hemv (R := ℝ) (A.view : MatV ℂ) t (x.view.scaled Complex.I) y).prog h).map fun r =>
        ((), r.2.mapped (starRingEnd ℂ)) :=
  C76_conjugate_data _ _ (.hemv _ _ _ _ _ _ (mview_related _ A)
    (scaled_related (rel := fun z w : ℂ => (starRingEnd ℂ) z = w) (fun e1 e2 => by rw [map_mul, e1, e2]) Complex.conj_I (view_related _ x))) h

/-! ### Derivatives -/

section
local instance : FloatOps Unit := ⟨id, id, fun _ _ => false, fun _ _ => false⟩
local instance : Zero Unit := ⟨()⟩
local instance : One Unit := ⟨()⟩
local instance : Add Unit := ⟨fun _ _ => ()⟩
local instance : Mul Unit := ⟨fun _ _ => ()⟩
local instance : Div Unit := ⟨fun _ _ => ()⟩
local instance : MagOps (ℝ → ℝ) Unit := ⟨fun _ => (), fun _ => (), fun _ => (), false⟩

theorem respects_dual (t : ℝ) : Respects (Dual.Of t) where
  zero := ⟨rfl, hasDerivAt_const t (0 : ℝ)⟩
  add := fun h1 h2 => ⟨congrArg₂ (· + ·) h1.val h2.val, h1.der.add h2.der⟩
  sub := fun h1 h2 => ⟨congrArg₂ (· - ·) h1.val h2.val, h1.der.sub h2.der⟩
  mul := fun {a b c d} h1 h2 => ⟨congrArg₂ (· * ·) h1.val h2.val, by
    have := h1.der.mul h2.der
    rw [h1.val, h2.val] at this
    exact this⟩
  conj := fun h => h
  re := fun h => h

/-- **C76** Automatic differentiation: if the inputs (in memory and as arguments) are functions of a
parameter, and the dual numbers hold their values and derivatives at `t`, then after the call with
dual numbers they hold the values and derivatives at `t` of the results, as functions of the
parameter.  The calls fail for the same reason or not at all.  (Solves: those with an implicit unit
diagonal; a division by a function that vanishes has no derivative.) -/
theorem C76_derivative {S T : Type} [Zero S] [One S] [Add S] [Mul S] [Div S] [FloatOps S] [MagOps ℝ S]
    [Zero T] [One T] [Add T] [Mul T] [Div T] [FloatOps T] [MagOps Dual T] (t : ℝ)
    (family : Call (ℝ → ℝ) Unit) (c : ℝ → Call ℝ S) (d : Call Dual T)
    (hN : ¬ family.IsNorm) (hD : ¬ family.Divides)
    (hc : ∀ s, Call.Related (fun f a => f s = a) (fun _ _ => True) family (c s))
    (hd : Call.Related (Dual.Of t) (fun _ _ => True) family d)
    (h : Heap (ℝ → ℝ)) (k : Heap Dual) (hk : Heap.Related (Dual.Of t) h k) :
    (∃ e, d.prog k = .error e ∧ ∀ s, (c s).prog (h.mapped fun f => f s) = .error e) ∨
      ∃ (h' : Heap (ℝ → ℝ)) (k' : Heap Dual), d.prog k = .ok ((), k') ∧
        (∀ s, (c s).prog (h.mapped fun f => f s) = .ok ((), h'.mapped fun f => f s)) ∧
        Heap.Related (Dual.Of t) h' k' := by
  have he : ∀ s, (c s).prog (h.mapped fun f => f s) =
      (family.prog h).map fun r => ((), r.2.mapped fun f => f s) := fun s =>
    C76_homomorphism (fun f : ℝ → ℝ => f s) (fun _ _ => True)
      { zero := rfl
        add := fun e1 e2 => by rw [← e1, ← e2]; rfl
        sub := fun e1 e2 => by rw [← e1, ← e2]; rfl
        mul := fun e1 e2 => by rw [← e1, ← e2]; rfl
        conj := fun e => by rw [← e]; rfl
        re := fun e => by rw [← e]; rfl }
      family (c s) (fun hn => absurd hn hN) (fun _ _ _ => rfl) (hc s) h
  rcases C76_transfer (Dual.Of t) (fun _ _ => True) (respects_dual t) family d
    (fun hn => absurd hn hN) (fun hn => absurd hn hD) hd h k hk with
    ⟨e, e1, e2⟩ | ⟨_, _, h', k', e1, e2, _, hk'⟩
  · exact .inl ⟨e, e2, fun s => by rw [he s, e1]; rfl⟩
  · exact .inr ⟨h', k', e2, fun s => by rw [he s, e1]; rfl, hk'⟩

/-- The derivative of `A(s) x(s)` where every element is an arbitrary differentiable function of
`s`. -/
example [MagOps ℝ ℝ] [MagOps Dual ℝ] (t : ℝ) (h : Heap (ℝ → ℝ)) (k : Heap Dual)
    (hk : Heap.Related (Dual.Of t) h k) :
    (∃ e, (Call.gemv (R := ℝ) A.view x.view y).prog k = .error e ∧
      ∀ s : ℝ, (Call.gemv (R := ℝ) (A.view : MatV ℝ) x.view y).prog (h.mapped fun f => f s) =
        .error e) ∨
      ∃ (h' : Heap (ℝ → ℝ)) (k' : Heap Dual),
        (Call.gemv (R := ℝ) A.view x.view y).prog k = .ok ((), k') ∧
        (∀ s, (Call.gemv (R := ℝ) (A.view : MatV ℝ) x.view y).prog (h.mapped fun f => f s) =
          .ok ((), h'.mapped fun f => f s)) ∧ Heap.Related (Dual.Of t) h' k' :=
  C76_derivative t (.gemv A.view x.view y) (fun _ => .gemv A.view x.view y) _
    (by exact id) (by exact id)
    (fun _ => .gemv _ _ _ _ _ (mview_related _ A) (view_related _ x))
    (.gemv _ _ _ _ _ (mview_related _ A) (view_related _ x)) h k hk

/-- Such memories exist: cell `a` holds the function `s ↦ a s`. -/
example : Heap.Related (Dual.Of 2) (fun a => some fun s : ℝ => a * s)
    (fun a => some ⟨a * 2, a⟩) := fun a => .some ⟨rfl, by
  have := (hasDerivAt_id (2 : ℝ)).const_mul (a : ℝ)
  rwa [mul_one] at this⟩
end

/-! ### Intervals -/

theorem mul_between {a b x : ℝ} (y : ℝ) (h1 : a ≤ x) (h2 : x ≤ b) :
    min (a * y) (b * y) ≤ x * y ∧ x * y ≤ max (a * y) (b * y) := by
  rcases le_total 0 y with hy | hy
  · exact ⟨(min_le_left _ _).trans (mul_le_mul_of_nonneg_right h1 hy),
      (mul_le_mul_of_nonneg_right h2 hy).trans (le_max_right _ _)⟩
  · exact ⟨(min_le_right _ _).trans (mul_le_mul_of_nonpos_right h2 hy),
      (mul_le_mul_of_nonpos_right h1 hy).trans (le_max_left _ _)⟩

theorem respects_ivl : Respects Ivl.Encloses where
  zero := ⟨le_rfl, le_rfl⟩
  add := fun h1 h2 => ⟨add_le_add h1.1 h2.1, add_le_add h1.2 h2.2⟩
  sub := fun h1 h2 => ⟨sub_le_sub h1.1 h2.2, sub_le_sub h1.2 h2.1⟩
  mul := fun {x a y b} h1 h2 => by
    have h3 := mul_between y h1.1 h1.2
    have h4 := mul_between a.lo h2.1 h2.2
    have h5 := mul_between a.hi h2.1 h2.2
    rw [mul_comm b.lo, mul_comm b.hi, mul_comm y] at h4 h5
    exact ⟨(min_le_min h4.1 h5.1).trans h3.1, h3.2.trans (max_le_max h4.2 h5.2)⟩
  conj := fun h => h
  re := fun h => h

/-- **C76** Interval arithmetic: if the intervals enclose the inputs, then they enclose the results
(products, updates, sums, rotations, and solves with an implicit unit diagonal). -/
theorem C76_intervals {R S : Type} [Zero R] [One R] [Add R] [Mul R] [Div R] [FloatOps R] [MagOps ℝ R]
    [Zero S] [One S] [Add S] [Mul S] [Div S] [FloatOps S] [MagOps Ivl S]
    (c : Call ℝ R) (c' : Call Ivl S) (hN : ¬ c.IsNorm) (hD : ¬ c.Divides)
    (hc : Call.Related Ivl.Encloses (fun _ _ => True) c c') (h : Heap ℝ) (k : Heap Ivl)
    (hh : Heap.Related Ivl.Encloses h k) :
    DoSame Ivl.Encloses (fun _ _ => True) c.prog c'.prog h k :=
  C76_transfer _ _ respects_ivl c c' (fun hn => absurd hn hN) (fun hn => absurd hn hD) hc h k hh

/-- `symmetric_matrix_rank_k_update` scaled with a number between 1 and 2. -/
example [MagOps ℝ ℝ] [MagOps Ivl ℝ] (t : Triangle) (h : Heap ℝ) (k : Heap Ivl)
    (hh : Heap.Related Ivl.Encloses h k) :
    DoSame Ivl.Encloses (fun _ _ => True)
      (Call.syrkAlpha (R := ℝ) (3 / 2 : ℝ) A.view C t).prog
      (Call.syrkAlpha (R := ℝ) (⟨1, 2⟩ : Ivl) A.view C t).prog h k :=
  C76_intervals _ _ (by exact id) (by exact id) (.syrkAlpha _ _ _ _ _ _
    ⟨by norm_num, by norm_num⟩ (mview_related _ A)) h k hh

end StdBLAS

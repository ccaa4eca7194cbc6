import Verif.Model.Proxy
import Mathlib.Algebra.Order.Floor.Ring
import Mathlib.Data.Rat.Floor
import Mathlib.Tactic.NormNum

/-!
# Proxy references: C44
-/

namespace StdBLAS
variable {σ V D W E R : Type}

/-! ## Specification -/

/-- In memory `h` the proxy denotes the value `v` (of the type of the expression that it stands
for: the product, or the conjugate). -/
def Proxy.Denotes (p : Proxy σ V D) (h : Heap σ) (v : D) : Prop :=
  ∃ c, h p.cell = some c ∧ p.toValue c = v

/-- **C44, values**: `conjugated_scalar` denotes the conjugate of the element it refers to,
`scaled_scalar` the product of the factor and the element, in this order. -/
theorem C44_conjugated_denotes [ConjOps V] {h : Heap V} {a : Nat} {c : V} (hc : h a = some c) :
    (conjugatedScalar (V := V) a).Denotes h (ConjOps.conj c) := ⟨c, hc, rfl⟩

theorem C44_scaled_denotes {S : Type} {mul : S → V → D} {conv : D → V} {back : V → D} {s : S}
    {h : Heap V} {a : Nat} {c : V} (hc : h a = some c) :
    (scaledScalar mul conv back s a).Denotes h (mul s c) := ⟨c, hc, rfl⟩

/-- The product has the element type itself (`double * double`, `complex * complex`; not
`double * int`), so that nothing is converted. -/
def Proxy.SameType (p : Proxy σ V V) : Prop := p.conv = id ∧ p.back = id

/-- `r` is the result of a program that changes nothing. -/
def Yields (p : Prog σ R) (h : Heap σ) (r : R) : Prop := Ends p h fun v h' => v = r ∧ h' = h

/-! ## C44 -/

/-- **C44, one element type** (all operators at once, `symbol` is any of `+ - * /`, or any other
operation): a proxy on either side or on both gives the operation on the denoted values, in
the same operand order, and changes nothing. -/
theorem C44_binary_partial (p : Proxy σ V V) (q : Proxy σ W W) (hp : p.SameType) (hq : q.SameType)
    (h : Heap σ) (v : V) (w : W) (hv : p.Denotes h v) (hw : q.Denotes h w)
    (symbol : V → W → R) :
    Yields (Proxy.binary1 symbol p q) h (symbol v w) ∧
    Yields (Proxy.binary2 symbol p w) h (symbol v w) ∧
    Yields (Proxy.binary3 symbol v q) h (symbol v w) := by
  obtain ⟨c, hc, rfl⟩ := hv
  obtain ⟨e, he, rfl⟩ := hw
  obtain ⟨p1, p2⟩ := hp
  obtain ⟨q1, q2⟩ := hq
  refine ⟨?_, ?_, ?_⟩
  · simp [Yields, Proxy.binary1, Proxy.value, hc, he, p1, q1, q2]
  · simp [Yields, Proxy.binary2, Proxy.value, hc, p1]
  · simp [Yields, Proxy.binary3, Proxy.value, he, q1]

/-- **C44, unary operations, one element type**: minus, `real`, `imag`, `conj` (`fn` is any of
them) and `abs`; for unsigned types, where `abs` is the identity, the value is returned. -/
theorem C44_unary_partial [Neg V] (p : Proxy σ V V) (hp : p.SameType) (h : Heap σ) (v : V)
    (hv : p.Denotes h v) (fn absFn ofUnsigned : V → R) (isUnsigned : Bool)
    (habs : isUnsigned = true → ∀ x, ofUnsigned x = absFn x) :
    Yields p.value h v ∧ Yields p.neg h (-v) ∧ Yields (p.via fn) h (fn v) ∧
    Yields (p.abs isUnsigned absFn ofUnsigned) h (absFn v) := by
  obtain ⟨c, hc, rfl⟩ := hv
  obtain ⟨p1, p2⟩ := hp
  refine ⟨?_, ?_, ?_, ?_⟩
  · simp [Yields, Proxy.value, hc, p1]
  · simp [Yields, Proxy.neg, Proxy.value, hc, p1]
  · simp [Yields, Proxy.via, Proxy.value, hc, p1]
  · cases isUnsigned
    · simp [Yields, Proxy.abs, Proxy.value, hc, p1]
    · simp [Yields, Proxy.abs, Proxy.value, hc, p1, habs rfl]

/-- `conjugated_scalar` always has one element type; `scaled_scalar` has if the product does. -/
theorem C44_same_type [ConjOps V] {S : Type} (mul : S → V → V) (s : S) (a : Nat) :
    (conjugatedScalar (V := V) a).SameType ∧ (scaledScalar mul id id s a).SameType :=
  ⟨⟨rfl, rfl⟩, ⟨rfl, rfl⟩⟩

/-- **C44, general case, exactly**: every operand that is a proxy goes through the element type of
the reference (`conv`), even where the product has a wider type. -/
theorem C44_binary_exact (p : Proxy σ V D) (q : Proxy σ W E) (h : Heap σ) (v : D) (w : E)
    (hv : p.Denotes h v) (hw : q.Denotes h w) :
    (∀ symbol : V → E → R,
      Yields (Proxy.binary1 symbol p q) h (symbol (p.conv v) (q.back (q.conv w)))) ∧
    (∀ (X : Type) (x : X) (symbol : V → X → R),
      Yields (Proxy.binary2 symbol p x) h (symbol (p.conv v) x)) ∧
    (∀ (X : Type) (x : X) (symbol : X → W → R),
      Yields (Proxy.binary3 symbol x q) h (symbol x (q.conv w))) := by
  obtain ⟨c, hc, rfl⟩ := hv
  obtain ⟨e, he, rfl⟩ := hw
  refine ⟨fun s => ?_, fun X x s => ?_, fun X x s => ?_⟩
  · simp [Yields, Proxy.binary1, Proxy.value, hc, he]
  · simp [Yields, Proxy.binary2, Proxy.value, hc]
  · simp [Yields, Proxy.binary3, Proxy.value, he]

/-- `scaled_scalar<double, int&, int>(0.5, ref)`; `double` is represented by the rationals (all
numbers here are exact in `double`), the conversion to `int` of the nonnegative value rounds
down. -/
def halfOf (a : Nat) : Proxy ℤ ℤ ℚ := scaledScalar (fun (s : ℚ) (v : ℤ) => s * v) Int.floor (fun v => v) (1/2) a

/-- **C44 is false** for mixed types: with `ref` referring to an `int` 3, the proxy denotes 1.5, but
`proxy + 0.0` is 1 and `proxy * 2` is 2, not 3. -/
theorem C44_mixed_types_false :
    let h : Heap ℤ := fun _ => some 3
    (halfOf 0).Denotes h (3 / 2) ∧
    Yields (Proxy.binary2 (fun (x : ℤ) (y : ℚ) => (x : ℚ) + y) (halfOf 0) 0) h 1 ∧
    Yields (Proxy.binary2 (fun (x : ℤ) (y : ℤ) => x * y) (halfOf 0) 2) h 2 := by
  intro h
  have e : ⌊(2⁻¹ * 3 : ℚ)⌋ = 1 := by rw [Int.floor_eq_iff]; norm_num
  refine ⟨⟨3, rfl, by simp [halfOf, scaledScalar]; norm_num⟩, ?_, ?_⟩
  · have := (C44_binary_exact (halfOf 0) (halfOf 0) h (1 / 2 * 3) (1 / 2 * 3)
      ⟨3, rfl, by simp [halfOf, scaledScalar]⟩ ⟨3, rfl, by simp [halfOf, scaledScalar]⟩).2.1 ℚ 0
      (fun (x : ℤ) (y : ℚ) => (x : ℚ) + y)
    simpa [halfOf, scaledScalar, e] using this
  · have := (C44_binary_exact (halfOf 0) (halfOf 0) h (1 / 2 * 3) (1 / 2 * 3)
      ⟨3, rfl, by simp [halfOf, scaledScalar]⟩ ⟨3, rfl, by simp [halfOf, scaledScalar]⟩).2.1 ℤ 2
      (fun (x : ℤ) (y : ℤ) => x * y)
    simpa [halfOf, scaledScalar, e] using this

/-- `conj(z) - 2*w` for complex cells `z = i` and `w = 3`. -/
example : Yields (Proxy.binary1 (fun a b : ℂ => a - b) (conjugatedScalar 0)
      (scaledScalar (fun s v : ℂ => s * v) id id 2 1))
    (fun a => if a = 0 then some Complex.I else some 3) ((starRingEnd ℂ) Complex.I - 2 * 3) :=
  (C44_binary_partial _ _ (C44_same_type (fun s v : ℂ => s * v) (2 : ℂ) 0).1
    (C44_same_type (fun s v : ℂ => s * v) (2 : ℂ) 1).2 _ _ _
    (C44_conjugated_denotes (by simp)) (C44_scaled_denotes (by simp)) _).1

/-- `-conj(z)` and `real(conj(z))` for `z = i`. -/
example : Yields (conjugatedScalar 0).neg (fun _ => some Complex.I) (-(starRingEnd ℂ) Complex.I) ∧
    Yields ((conjugatedScalar 0).via Complex.re) (fun _ => some Complex.I)
      ((starRingEnd ℂ) Complex.I).re := by
  obtain ⟨-, h1, h2, -⟩ := C44_unary_partial (conjugatedScalar 0)
    (C44_same_type (fun s v : ℂ => s * v) (2 : ℂ) 0).1 (fun _ => some Complex.I) _
    (C44_conjugated_denotes rfl) Complex.re (fun z => ‖z‖) (fun z => ‖z‖) false (by simp)
  exact ⟨h1, h2⟩

end StdBLAS

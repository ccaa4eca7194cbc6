import Verif.Core.Machine
import Verif.Core.Scalar

/-!
# Proxy references (`proxy_reference.hpp`)

A proxy holds a reference to a memory cell of type `σ` and reads it when it is converted to a
value.  Two value types are involved: `V` (template parameter `Value` of `proxy_reference`,
given as `ReferenceValue` by the derived classes, 208-210 and 229-232) and `D` (the type that
`to_value` returns, and the `value_type` of the derived class, 219, 244).

Simplifications: `Reference` is `σ&` with `σ` convertible to `ReferenceValue`; the branches for
`std::atomic_ref` of a non-arithmetic type (126-131, 141-146) are not modelled (they need
`LINALG_ENABLE_ATOMIC_REF`).
-/

namespace StdBLAS

/-- A proxy reference object. -/
structure Proxy (σ V D : Type) where
  /-- address of the cell that `reference_` refers to -/
  cell : Nat
  /-- `Derived::to_value(reference_)` as a function of the cell's content -/
  toValue : σ → D
  /-- the implicit conversion from the result of `to_value` to `value_type` (99-101) -/
  conv : D → V
  /-- the conversion `rhs_value_type(...)` of a `value_type` to the derived class's
  `value_type` (118-119) -/
  back : V → D

/-- `proxy_reference.hpp:206-223` `conjugated_scalar<Reference, ReferenceValue>`:
`to_value` is `conj_if_needed(ReferenceValue(reference))`, which has type `ReferenceValue`. -/
def conjugatedScalar {V : Type} [ConjOps V] (cell : Nat) : Proxy V V V :=
  ⟨cell, fun v => ConjOps.conj v, id, id⟩

/-- `proxy_reference.hpp:227-256` `scaled_scalar<ScalingFactor, Reference, ReferenceValue>`:
`to_value` is `scaling_factor_ * ReferenceValue(reference)`, of type `D`; `conv` is the
conversion of `D` to `ReferenceValue` and `back` the opposite conversion. -/
def scaledScalar {S V D : Type} (mul : S → V → D) (conv : D → V) (back : V → D) (s : S)
    (cell : Nat) : Proxy V V D :=
  ⟨cell, fun v => mul s v, conv, back⟩

namespace Proxy
variable {σ V D W E R : Type}

/-- `proxy_reference.hpp:99-101` `operator value_type()`. -/
def value (p : Proxy σ V D) : Prog σ V := do let v ← Prog.load p.cell; pure (p.conv (p.toValue v))

/-- `proxy_reference.hpp:107-110` unary minus: `-value_type(cs)`. -/
def neg [Neg V] (p : Proxy σ V D) : Prog σ V := do let v ← p.value; pure (-v)

/-- `proxy_reference.hpp:113-121` case 1, `proxy SYMBOL proxy`:
`value_type(lhs) SYMBOL rhs_value_type(rhs)`; instantiated for `+ - * /` at 162-165. -/
def binary1 (symbol : V → E → R) (lhs : Proxy σ V D) (rhs : Proxy σ W E) : Prog σ R := do
  let a ← lhs.value
  let b ← rhs.value
  pure (symbol a (rhs.back b))

/-- `proxy_reference.hpp:123-136` case 2, `proxy SYMBOL value`. -/
def binary2 (symbol : V → W → R) (lhs : Proxy σ V D) (rhs : W) : Prog σ R := do
  let a ← lhs.value
  pure (symbol a rhs)

/-- `proxy_reference.hpp:138-150` case 3, `value SYMBOL proxy`. -/
def binary3 (symbol : W → V → R) (lhs : W) (rhs : Proxy σ V D) : Prog σ R := do
  let b ← rhs.value
  pure (symbol lhs b)

/-- `proxy_reference.hpp:167-173` `abs`: the value itself for an unsigned type. -/
def abs (isUnsigned : Bool) (absFn : V → R) (ofUnsigned : V → R) (p : Proxy σ V D) : Prog σ R := do
  let v ← p.value
  if isUnsigned then pure (ofUnsigned v) else pure (absFn v)

/-- `proxy_reference.hpp:175-185` `real`, `imag`, `conj`: `real_if_needed`, `imag_if_needed`,
`conj_if_needed` of the value. -/
def via (fn : V → R) (p : Proxy σ V D) : Prog σ R := do
  let v ← p.value
  pure (fn v)

end Proxy

end StdBLAS

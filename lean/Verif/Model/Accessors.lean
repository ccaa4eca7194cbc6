import Verif.Model.Layouts

/-!
# Accessors and views with mixed element types

`scaled`, `conjugated`, `transposed` and `conjugate_transposed` as they act on data handle,
mapping and accessor.  Unlike in `Model/Views.lean` the element type may change from view to
view (`scaled(2.5, A)` for a matrix `A` of integers).
-/

namespace StdBLAS

/-- An element type with what `conj_if_needed.hpp` asks about it. -/
structure ElemTy where
  /-- the values -/
  carrier : Type
  /-- `conj_if_needed.hpp:63-69` `has_conj<T>`: an unqualified `conj` can be found -/
  hasConj : Bool
  /-- `std::is_arithmetic_v<T>` -/
  arith : Bool
  /-- that `conj` (irrelevant if there is none) -/
  conj : carrier → carrier
  /-- the assumption stated at `conj_if_needed.hpp:66-67`: it is a conjugation -/
  conj_conj : ∀ x, conj (conj x) = x

/-- `conj_if_needed.hpp:71-92`. -/
def ElemTy.conjIfNeeded (β : ElemTy) (t : β.carrier) : β.carrier :=
  match β.hasConj with
  | false => t
  | true => if β.arith then t else β.conj t

/-- Accessors over memory cells of type `σ` that read values of type `β`. -/
inductive Accessor (σ : ElemTy) : ElemTy → Type 1 where
  /-- `default_accessor` -/
  | default : Accessor σ σ
  /-- `scaled.hpp:53-104` `scaled_accessor<ScalingFactor, NestedAccessor>`; `mul` is the
  operator `*` between the scaling factor and the nested element type -/
  | scaled {S : Type} {β γ : ElemTy} (mul : S → β.carrier → γ.carrier) (s : S)
      (nested : Accessor σ β) : Accessor σ γ
  /-- `conjugated.hpp:53-95` `conjugated_accessor<NestedAccessor>` -/
  | conjugated {β : ElemTy} (nested : Accessor σ β) : Accessor σ β

namespace Accessor
variable {σ β γ : ElemTy}

/-- `access(p, i)`: `default_accessor` reads cell `p + i`; `scaled.hpp:86-88` puts the scaling
factor on the left of the nested access; `conjugated.hpp:79-83`. -/
def access {β : ElemTy} : Accessor σ β → (p i : Nat) → Prog σ.carrier β.carrier
  | .default, p, i => Prog.load (p + i)
  | .scaled mul s a, p, i => do let v ← a.access p i; pure (mul s v)
  | .conjugated (β := β) a, p, i => do let v ← a.access p i; pure (β.conjIfNeeded v)

/-- `offset(p, i)`: `default_accessor` gives `p + i`; `scaled.hpp:90-93`, `conjugated.hpp:85-89`
pass it to the nested accessor. -/
def offset {β : ElemTy} : Accessor σ β → (p i : Nat) → Nat
  | .default, p, i => p + i
  | .scaled _ _ a, p, i => a.offset p i
  | .conjugated a, p, i => a.offset p i

/-- `offset_policy`: that of `default_accessor` is itself; `scaled.hpp:60-61`,
`conjugated.hpp:61-62` wrap that of the nested accessor. -/
def offsetPolicy {β : ElemTy} : Accessor σ β → Accessor σ β
  | .default => .default
  | .scaled mul s a => .scaled mul s a.offsetPolicy
  | .conjugated a => .conjugated a.offsetPolicy

/-- The accessor that `conjugated` chooses: `conjugated.hpp:131-139` for an accessor that
conjugates already, else 97-128; `fix` says whether `LINALG_FIX_CONJUGATED_FOR_NONCOMPLEX` is
defined. -/
def conj {β : ElemTy} (fix : Bool) : Accessor σ β → Accessor σ β
  | .conjugated a => a
  | .default =>
    if fix && σ.arith then .default else if fix && !σ.hasConj then .default
    else .conjugated .default
  | .scaled (γ := γ) mul s a =>
    if fix && γ.arith then .scaled mul s a else if fix && !γ.hasConj then .scaled mul s a
    else .conjugated (.scaled mul s a)

end Accessor

/-- A rank-2 mdspan: data handle, layout mapping, accessor. -/
structure Mdspan2 (σ β : ElemTy) where
  /-- `data_handle()` -/
  ptr : Nat
  /-- `mapping()` -/
  map : Layout
  /-- `accessor()` -/
  acc : Accessor σ β

/-- Configuration macros of the library. -/
structure Config where
  /-- `LINALG_FIX_TRANSPOSED_FOR_PADDED_LAYOUTS` -/
  fixTransposed : Bool
  /-- `LINALG_FIX_CONJUGATED_FOR_NONCOMPLEX` -/
  fixConjugated : Bool

namespace Mdspan2
variable {σ β γ : ElemTy}

/-- Read `A(i, j)`: `accessor().access(data_handle(), mapping()(i, j))`; an index out of range
violates a precondition. -/
def get (A : Mdspan2 σ β) (i j : Nat) : Prog σ.carrier β.carrier :=
  if i < A.map.ext0 ∧ j < A.map.ext1 then A.acc.access A.ptr (A.map.offset i j) else Prog.fail .ub

/-- `scaled.hpp:116-131`. -/
def scaled {S : Type} (mul : S → β.carrier → γ.carrier) (s : S) (A : Mdspan2 σ β) : Mdspan2 σ γ :=
  ⟨A.ptr, A.map, .scaled mul s A.acc⟩

/-- `conjugated.hpp:97-139`. -/
def conjugated (c : Config) (A : Mdspan2 σ β) : Mdspan2 σ β :=
  ⟨A.ptr, A.map, A.acc.conj c.fixConjugated⟩

/-- `transposed.hpp:364-375`: same data handle, mapping from `transposed_layout`, same accessor
(187-205 `transposed_element_accessor`). -/
def transposed (c : Config) (A : Mdspan2 σ β) : Except NoTranspose (Mdspan2 σ β) :=
  match A.map.transposed c.fixTransposed with
  | .ok m => .ok ⟨A.ptr, m, A.acc⟩
  | .error e => .error e

/-- `conjugate_transposed.hpp:54-58`. -/
def conjugateTransposed (c : Config) (A : Mdspan2 σ β) : Except NoTranspose (Mdspan2 σ β) := do
  let t ← A.transposed c
  pure (t.conjugated c)

/-- `submdspan` of mdspan for a window that starts at `(i0, j0)`: the data handle is
`accessor().offset(data_handle(), mapping()(i0, j0))`, the accessor is the `offset_policy`, the
mapping is `m`, which mdspan chooses. -/
def submdspan (A : Mdspan2 σ β) (i0 j0 : Nat) (m : Layout) : Mdspan2 σ β :=
  ⟨A.acc.offset A.ptr (A.map.offset i0 j0), m, A.acc.offsetPolicy⟩

end Mdspan2

end StdBLAS

import Verif.Core.Mdspan

/-!
# C++ integer types

Fixed-width integers with the C++ rules for promotion, the usual arithmetic conversions,
conversion, and overflow (modular for unsigned, undefined for signed), as far as loop
counters and index computations need them.  The platform is LP64 / LLP64 with 8-bit bytes:
`int` has 32 bits and `ptrdiff_t` has 64.
-/

namespace StdBLAS

/-- An integer type: signedness and width. -/
structure IntTy where
  /-- signed type (two's complement) -/
  signed : Bool
  /-- width in bits -/
  bits : Nat
  deriving DecidableEq, Repr

namespace IntTy

/-- `int` -/
def int : IntTy := ⟨true, 32⟩
/-- `ptrdiff_t` -/
def ptrdiff : IntTy := ⟨true, 64⟩
/-- `uint8_t` -/
def uint8 : IntTy := ⟨false, 8⟩
/-- `uint32_t` -/
def uint32 : IntTy := ⟨false, 32⟩
/-- `size_t` -/
def size : IntTy := ⟨false, 64⟩

/-- The standard integer types (mdspan's `index_type` must be one of them). -/
def Std (t : IntTy) : Prop := t.bits = 8 ∨ t.bits = 16 ∨ t.bits = 32 ∨ t.bits = 64

/-- `numeric_limits<T>::max()` -/
def max (t : IntTy) : Int := if t.signed then 2 ^ (t.bits - 1) - 1 else 2 ^ t.bits - 1
/-- `numeric_limits<T>::min()` -/
def min (t : IntTy) : Int := if t.signed then - 2 ^ (t.bits - 1) else 0

/-- Value of `z` after conversion to type `t` (modulo `2^bits`; C++20 for signed types,
what every compiler does before). -/
def cast (t : IntTy) (z : Int) : Int :=
  let r := z % 2 ^ t.bits
  if t.signed ∧ 2 ^ (t.bits - 1) ≤ r then r - 2 ^ t.bits else r

/-- Integral promotion. -/
def promote (t : IntTy) : IntTy := if t.bits < 32 then int else t

/-- Usual arithmetic conversions. -/
def usual (t u : IntTy) : IntTy :=
  let t := t.promote
  let u := u.promote
  if t.signed = u.signed then (if t.bits < u.bits then u else t)
  else
    let s := if t.signed then t else u
    let n := if t.signed then u else t
    if s.bits ≤ n.bits then n else s

/-- `common_type_t<T, U>` -/
def common (t u : IntTy) : IntTy := if t = u then t else usual t u

/-- `make_signed_t<T>` -/
def makeSigned (t : IntTy) : IntTy := ⟨true, t.bits⟩

/-- Result of an arithmetic operation whose mathematical value is `z`, in (promoted) type `t`:
unsigned wraps around, signed overflow is undefined behaviour. -/
def arith {α : Type} (t : IntTy) (z : Int) : Prog α Int :=
  if t.signed then (if t.min ≤ z ∧ z ≤ t.max then pure z else Prog.fail .ub)
  else pure (z % 2 ^ t.bits)

/-- `a < b` for operands of types `t` and `u`. -/
def lt (t u : IntTy) (a b : Int) : Bool := (usual t u).cast a < (usual t u).cast b
/-- `a <= b` for operands of types `t` and `u`. -/
def le (t u : IntTy) (a b : Int) : Bool := (usual t u).cast a ≤ (usual t u).cast b

/-- `a + b` for operands of types `t` and `u`; the result has type `usual t u`. -/
def add {α : Type} (t u : IntTy) (a b : Int) : Prog α Int :=
  (usual t u).arith ((usual t u).cast a + (usual t u).cast b)
/-- `a - b` for operands of types `t` and `u`; the result has type `usual t u`. -/
def sub {α : Type} (t u : IntTy) (a b : Int) : Prog α Int :=
  (usual t u).arith ((usual t u).cast a - (usual t u).cast b)

/-- `++i` -/
def incr {α : Type} (t : IntTy) (i : Int) : Prog α Int := do
  let z ← add t int i 1
  pure (t.cast z)
/-- `--i` -/
def decr {α : Type} (t : IntTy) (i : Int) : Prog α Int := do
  let z ← sub t int i 1
  pure (t.cast z)

end IntTy

/-- `for (i = start; cond(i); step(i)) body` with a local variable of type `σ` that the body
updates; `fuel` bounds the number of tests of the condition (`Err.hang` beyond). -/
def cFor {α σ : Type} (cond : Int → Bool) (step : Int → Prog α Int) :
    Nat → Int → σ → (σ → Int → Prog α σ) → Prog α σ
  | 0, _, _, _ => Prog.fail .hang
  | fuel + 1, i, s, body =>
    if cond i then do
      let s' ← body s i
      let i' ← step i
      cFor cond step fuel i' s' body
    else pure s

/-- The same without a local variable. -/
def cForU {α : Type} (cond : Int → Bool) (step : Int → Prog α Int) (fuel : Nat) (i : Int)
    (body : Int → Prog α Unit) : Prog α Unit := cFor cond step fuel i () fun _ i => body i

/-- `A(i, j)` where `A`'s index type is `t`: the indices are converted to `t`, the result
must be inside the extents. -/
def MatV.at_ {α : Type} (A : MatV α) (t : IntTy) (i j : Int) : Prog α α :=
  if 0 ≤ t.cast i ∧ 0 ≤ t.cast j then A.get (t.cast i).toNat (t.cast j).toNat
  else Prog.fail .ub
/-- `A(i, j)`, read. -/
def Mat.at_ {α : Type} (A : Mat) (t : IntTy) (i j : Int) : Prog α α :=
  if 0 ≤ t.cast i ∧ 0 ≤ t.cast j then A.get (t.cast i).toNat (t.cast j).toNat
  else Prog.fail .ub
/-- `A(i, j) = v`. -/
def Mat.put {α : Type} (A : Mat) (t : IntTy) (i j : Int) (v : α) : Prog α Unit :=
  if 0 ≤ t.cast i ∧ 0 ≤ t.cast j then A.set (t.cast i).toNat (t.cast j).toNat v
  else Prog.fail .ub
/-- `x(i)` -/
def VecV.at_ {α : Type} (x : VecV α) (t : IntTy) (i : Int) : Prog α α :=
  if 0 ≤ t.cast i then x.get (t.cast i).toNat else Prog.fail .ub
/-- `x(i)`, read. -/
def Vec.at_ {α : Type} (x : Vec) (t : IntTy) (i : Int) : Prog α α :=
  if 0 ≤ t.cast i then x.get (t.cast i).toNat else Prog.fail .ub
/-- `x(i) = v` -/
def Vec.put {α : Type} (x : Vec) (t : IntTy) (i : Int) (v : α) : Prog α Unit :=
  if 0 ≤ t.cast i then x.set (t.cast i).toNat v else Prog.fail .ub

end StdBLAS

import Verif.Spec.Mixed
import Verif.Core.Scalar

/-!
# Integer element types

The arithmetic of C++ on the integer types of 8, 16, 32 and 64 bits, where `int` has 32 bits:
types smaller than `int` are promoted to `int`, the two operands are brought to a common type,
unsigned arithmetic wraps around, and signed arithmetic whose result the type cannot hold is
undefined behaviour.  Conversion to a type wraps around (for signed types: since C++20).
-/

namespace StdBLAS

/-- The integer types. -/
inductive CTy where
  | i8 | u8 | i16 | u16 | i32 | u32 | i64 | u64
  deriving DecidableEq

namespace CTy

/-- number of bits -/
def bits : CTy → ℕ
  | i8 | u8 => 8
  | i16 | u16 => 16
  | i32 | u32 => 32
  | i64 | u64 => 64

/-- signed type -/
def signed : CTy → Bool
  | i8 | i16 | i32 | i64 => true
  | u8 | u16 | u32 | u64 => false

/-- smallest value -/
def min (t : CTy) : ℤ := if t.signed then -2 ^ (t.bits - 1) else 0
/-- largest value -/
def max (t : CTy) : ℤ := if t.signed then 2 ^ (t.bits - 1) - 1 else 2 ^ t.bits - 1

/-- The type has this value. -/
def Fits (t : CTy) (z : ℤ) : Prop := t.min ≤ z ∧ z ≤ t.max

instance (t : CTy) (z : ℤ) : Decidable (t.Fits z) := inferInstanceAs (Decidable (_ ∧ _))

/-- The value of the type that equals `z` modulo `2 ^ bits`. -/
def wrap (t : CTy) (z : ℤ) : ℤ := if t.signed then z.bmod (2 ^ t.bits) else z % 2 ^ t.bits

/-- Integral promotion. -/
def promote : CTy → CTy
  | i8 | u8 | i16 | u16 | i32 => i32
  | t => t

/-- The type of `a + b`, `a - b`, `a * b` and `a / b`: the usual arithmetic conversions. -/
def common (s t : CTy) : CTy :=
  if s = u64 ∨ t = u64 then u64
  else if s = i64 ∨ t = i64 then i64
  else if s = u32 ∨ t = u32 then u32
  else i32

theorem wrap_fits (t : CTy) (z : ℤ) : t.Fits (t.wrap z) := by
  cases t <;> simp only [Fits, min, max, wrap, signed, bits, if_true, Bool.false_eq_true, if_false] <;>
    (try simp only [Int.bmod_def]) <;> omega

theorem wrap_of_fits {t : CTy} {z : ℤ} (h : t.Fits z) : t.wrap z = z := by
  revert h
  cases t <;> simp only [Fits, min, max, wrap, signed, bits, if_true, Bool.false_eq_true, if_false] <;>
    (try simp only [Int.bmod_def]) <;> omega

end CTy

/-- A value of an integer type; `none` is the value of an expression with undefined behaviour. -/
@[ext] structure CInt where
  ty : CTy
  val : Option ℤ
  fits : ∀ z, val = some z → ty.Fits z

namespace CInt

/-- The value of type `t` that equals `z` modulo `2 ^ bits`. -/
def ofInt (t : CTy) (z : ℤ) : CInt :=
  ⟨t, some (t.wrap z), fun _ h => by rw [← Option.some.inj h]; exact t.wrap_fits z⟩

/-- Undefined behaviour. -/
def undef (t : CTy) : CInt := ⟨t, none, nofun⟩

/-- The outcome of an operation of type `t` with exact result `z`. -/
def ofExact (t : CTy) (z : ℤ) : CInt := if t.signed ∧ ¬ t.Fits z then undef t else ofInt t z

/-- Arithmetic in the common type. -/
def op (f : CTy → ℤ → ℤ → CInt) (a b : CInt) : CInt :=
  let t := a.ty.common b.ty
  match a.val, b.val with
  | some x, some y => f t (t.wrap x) (t.wrap y)
  | _, _ => undef t

/-- Conversion. -/
def cast (t : CTy) (a : CInt) : CInt :=
  match a.val with
  | some x => ofInt t x
  | none => undef t

instance : MixedOps CInt CTy where
  add := op fun t x y => ofExact t (x + y)
  sub := op fun t x y => ofExact t (x - y)
  mul := op fun t x y => ofExact t (x * y)
  div := op fun t x y => if y = 0 then undef t else ofExact t (x.tdiv y)
  ty := ty
  conv := cast
  zero t := ofInt t 0
  mulTy := CTy.common
  subTy := CTy.common

theorem ty_ofExact (t : CTy) (z : ℤ) : (ofExact t z).ty = t := by unfold ofExact; split <;> rfl

theorem ty_op {f : CTy → ℤ → ℤ → CInt} (hf : ∀ t x y, (f t x y).ty = t) (a b : CInt) :
    (op f a b).ty = a.ty.common b.ty := by
  unfold op; dsimp only; split
  · exact hf ..
  · rfl

instance : LawfulMixed CInt CTy where
  ty_conv t a := by
    show (cast t a).ty = t
    unfold cast; split <;> rfl
  conv_self a := by
    show cast a.ty a = a
    unfold cast
    split
    · rename_i x hx
      refine CInt.ext rfl ?_
      rw [hx]; exact congrArg some (CTy.wrap_of_fits (a.fits x hx))
    · rename_i hx
      exact CInt.ext rfl hx.symm
  ty_zero _ := rfl
  ty_mul := ty_op fun _ _ _ => ty_ofExact ..
  ty_sub := ty_op fun _ _ _ => ty_ofExact ..

/-- `conj_if_needed.hpp` and `real_if_needed.hpp` return an arithmetic value unchanged. -/
instance : ConjOps CInt := ⟨id, id⟩

/-- `abs_if_needed.hpp:67-81`: an unsigned value is returned unchanged; `std::abs` of a signed one
has the promoted type, and is undefined if that type cannot hold it.  `std::sqrt` of an integer is a
floating-point number and is not modelled. -/
def abs (a : CInt) : CInt :=
  if a.ty.signed then
    match a.val with
    | some x => ofExact a.ty.promote |x|
    | none => undef a.ty.promote
  else a

instance : MixedMag CInt CTy where
  abs := abs
  sqrt a := undef a.ty
  lt a b := match a.val, b.val with
    | some x, some y => (a.ty.common b.ty).wrap x < (a.ty.common b.ty).wrap y
    | _, _ => false
  isZero a := a.val == some 0
  one t := ofInt t 1

end CInt

/-- The types for which sums of products never have undefined behaviour. -/
def CTy.Safe (t : CTy) : Prop := t = .i8 ∨ t = .u8 ∨ t = .i16 ∨ t = .u32 ∨ t = .u64

/-- The types for which sums of products of three factors, and of two products, never have undefined
behaviour. -/
def CTy.Safe3 (t : CTy) : Prop := t = .i8 ∨ t = .u8 ∨ t = .u32 ∨ t = .u64

/-- The unsigned types that are not promoted. -/
def CTy.Wide (t : CTy) : Prop := t = .u32 ∨ t = .u64

end StdBLAS

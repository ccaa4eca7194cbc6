import Verif.Core.MixedTypes
import Verif.Spec.Order
import Verif.Spec.Rounding

/-!
# Specification for mixed element types

Sums that are converted to a type after each addition, and two families of types.
-/

namespace StdBLAS

/-- The addition of a compound assignment to a variable of type `t`: `a += b` leaves `t(a + b)`. -/
@[reducible] def addAs {D T : Type} [MixedOps D T] (t : T) : Add D :=
  ⟨fun a b => MixedOps.conv t (a + b)⟩

/-- `s += f 0; s += f 1; ...; s += f (n - 1)` on a variable of type `t`. -/
def leftSumAs {D T : Type} [MixedOps D T] (t : T) (s : D) : Nat → (Nat → D) → D
  | 0, _ => s
  | n + 1, f => MixedOps.conv t (leftSumAs t s n f + f n)

/-- `s = s - f 0; ...; s = s - f (n - 1)` on a variable of type `t`. -/
def leftDiffAs {D T : Type} [MixedOps D T] (t : T) (s : D) : Nat → (Nat → D) → D
  | 0, _ => s
  | n + 1, f => MixedOps.conv t (leftDiffAs t s n f - f n)

/-- `triSeq` (`Spec/Order.lean`) on a variable of type `ty`. -/
def triSeqAs {D T : Type} [MixedOps D T] (ty : T) (t : Triangle) (d : Diag) (n : Nat)
    (a : Nat → Nat → D) (f : Nat → D) (s : D) (r : Nat) : D :=
  match t with
  | .lower => leftSumAs ty s (r + 1) fun c => triTerm d a f r c
  | .upper => leftSumAs ty s (n - r) fun c => triTerm d a f r (r + c)

/-- `triElement` (`Spec/Order.lean`) on a variable of type `ty`. -/
def triElementAs {D T : Type} [MixedOps D T] (ty : T) (before : Bool) (d : Diag) (n i : Nat)
    (t : Nat → D) (diag : D) (s : D) : D :=
  match before, d with
  | true, _ => MixedOps.conv ty (leftSumAs ty s i t + diag)
  | false, .explicit =>
    leftSumAs ty (MixedOps.conv ty (s + diag)) (n - 1 - i) fun k => t (i + 1 + k)
  | false, .implicitUnit =>
    MixedOps.conv ty (leftSumAs ty s (n - 1 - i) (fun k => t (i + 1 + k)) + diag)

/-- `triSeqInPlace` (`Spec/Order.lean`) on a variable of type `ty`. -/
def triSeqInPlaceAs {D T : Type} [MixedOps D T] (ty : T) (t : Triangle) (n : Nat)
    (a : Nat → Nat → D) (f : Nat → D) (s : D) (r : Nat) : D :=
  match t with
  | .lower => leftSumAs ty s r fun k => a r (r - 1 - k) * f (r - 1 - k)
  | .upper => leftSumAs ty s (n - 1 - r) fun k => a r (r + 1 + k) * f (r + 1 + k)

/-- Element `(i, j)` of `C` times a triangular matrix, in place, on a variable of type `ty` that starts
from the diagonal term `s`. -/
def rightSeqInPlaceAs {D T : Type} [MixedOps D T] (ty : T) (t : Triangle) (n : Nat)
    (c a : Nat → Nat → D) (s : D) (i j : Nat) : D :=
  match t with
  | .upper => leftSumAs ty s j fun k => c i k * a k j
  | .lower => leftSumAs ty s (n - 1 - j) fun k => c i (j + 1 + k) * a (j + 1 + k) j

/-- Row `i` of a substitution: the right-hand side `b` is converted to type `s`, the products are
subtracted in a variable of that type, and the quotient (or the difference) is converted to the
element type `x` of the solution. -/
def solveRowAs {D T : Type} [MixedOps D T] (s x : T) (t : Triangle) (d : Diag) (n i : Nat)
    (term : Nat → D) (b diag : D) : D :=
  let r := match t with
    | .lower => leftDiffAs s (MixedOps.conv s b) i term
    | .upper => leftDiffAs s (MixedOps.conv s b) (n - 1 - i) fun k => term (i + 1 + k)
  MixedOps.conv x (if d = .explicit then r / diag else r)

/-! ## Floating-point types of different precision -/

/-- A floating-point number of a type with `prec` significant binary digits (24 for `float`, 53 for
`double`), without limits on the exponent. -/
structure MixFlt where
  prec : ℕ
  val : ℝ

namespace MixFlt

/-- Arithmetic on two precisions: the operands are converted to the larger one. -/
noncomputable def op (f : ℝ → ℝ → ℝ) (a b : MixFlt) : MixFlt :=
  ⟨max a.prec b.prec, roundTo (max a.prec b.prec) (f a.val b.val)⟩

/-- Conversion to a wider type is exact, to a narrower one it rounds. -/
noncomputable def cast (p : ℕ) (a : MixFlt) : MixFlt :=
  if a.prec ≤ p then ⟨p, a.val⟩ else ⟨p, roundTo p a.val⟩

noncomputable instance : MixedOps MixFlt ℕ where
  add := op (· + ·)
  sub := op (· - ·)
  mul := op (· * ·)
  div := op (· / ·)
  ty := prec
  conv := cast
  zero p := ⟨p, 0⟩
  mulTy := max
  subTy := max

/-- The relative error of `s += e` when `s` has `q` digits and `e` has `p` digits: one rounding to `q`
digits if `q` is at least `p`, otherwise one to `p` digits and one to `q` digits. -/
noncomputable def addError (p q : ℕ) : ℝ :=
  if p ≤ q then (2 : ℝ)⁻¹ ^ q else (1 + (2 : ℝ)⁻¹ ^ p) * (1 + (2 : ℝ)⁻¹ ^ q) - 1

theorem add_def (a b : MixFlt) :
    a + b = ⟨max a.prec b.prec, roundTo (max a.prec b.prec) (a.val + b.val)⟩ := rfl
theorem mul_def (a b : MixFlt) :
    a * b = ⟨max a.prec b.prec, roundTo (max a.prec b.prec) (a.val * b.val)⟩ := rfl

instance : LawfulMixed MixFlt ℕ where
  ty_conv p a := by
    show (cast p a).prec = p
    unfold cast; split <;> rfl
  conv_self a := by
    show cast a.prec a = a
    unfold cast; rw [if_pos le_rfl]
  ty_zero _ := rfl
  ty_mul _ _ := rfl
  ty_sub _ _ := rfl

end MixFlt

/-! ## Integers, real and complex numbers -/

/-- The types of `Num`. -/
inductive NumTy where
  | int
  | real
  | complex
  deriving DecidableEq

/-- An integer, a real or a complex number: stands for `int`, `double` and `complex<double>` without
overflow and rounding.  (Integer division by zero, undefined in C++, gives 0 here.) -/
inductive Num where
  | int (z : ℤ)
  | real (x : ℝ)
  | complex (z : ℂ)

namespace Num

/-- The number, whatever its type. -/
noncomputable def val : Num → ℂ
  | int z => z
  | real x => x
  | complex z => z

/-- The real number, for the types that have no imaginary part. -/
noncomputable def toReal : Num → ℝ
  | int z => z
  | real x => x
  | complex z => z.re

/-- The type of a number. -/
def type : Num → NumTy
  | int _ => .int
  | real _ => .real
  | complex _ => .complex

/-- The usual arithmetic conversions. -/
def common : NumTy → NumTy → NumTy
  | .int, t => t
  | .real, .complex => .complex
  | .real, _ => .real
  | .complex, _ => .complex

/-- Every value of type `s` is a value of type `t`: mixed with `t`, it is converted to `t`. -/
def Fits (s t : NumTy) : Prop := common s t = t

/-- Conversion.  From a floating-point number to an integer it drops the fractional part.  (C++ has
no conversion from complex to real; the model takes the real part.) -/
noncomputable def cast : NumTy → Num → Num
  | .int, int z => int z
  | .int, v => int (if 0 ≤ v.toReal then ⌊v.toReal⌋ else ⌈v.toReal⌉)
  | .real, v => real v.toReal
  | .complex, v => complex v.val

/-- Arithmetic in the common type. -/
noncomputable def op (f : ℤ → ℤ → ℤ) (g : ℝ → ℝ → ℝ) (c : ℂ → ℂ → ℂ) (a b : Num) : Num :=
  match a, b with
  | int x, int y => int (f x y)
  | complex x, b => complex (c x b.val)
  | a, complex y => complex (c a.val y)
  | a, b => real (g a.toReal b.toReal)

noncomputable instance : MixedOps Num NumTy where
  add := op (· + ·) (· + ·) (· + ·)
  sub := op (· - ·) (· - ·) (· - ·)
  mul := op (· * ·) (· * ·) (· * ·)
  div := op Int.tdiv (· / ·) (· / ·)
  ty := type
  conv := cast
  zero
    | .int => int 0
    | .real => real 0
    | .complex => complex 0
  mulTy := common
  subTy := common

instance : LawfulMixed Num NumTy where
  ty_conv t a := by cases t <;> cases a <;> rfl
  conv_self a := by cases a <;> rfl
  ty_zero t := by cases t <;> rfl
  ty_mul a b := by cases a <;> cases b <;> rfl
  ty_sub a b := by cases a <;> cases b <;> rfl

noncomputable instance : MixedMag Num NumTy where
  abs
    | int z => int |z|
    | real x => real |x|
    | complex z => real ‖z‖
  sqrt v := real (Real.sqrt v.toReal)
  lt a b := open Classical in decide (a.toReal < b.toReal)
  isZero v := open Classical in decide (v.toReal = 0)
  one
    | .int => int 1
    | .real => real 1
    | .complex => complex 1

end Num

end StdBLAS

import Mathlib.Analysis.Real.Sqrt
import Mathlib.Tactic.Linarith
import Verif.Core.FloatOps

/-!
# Floating-point numbers with overflow, infinities and NaN

`Format` is a rounding together with a largest finite number.  `FP f` are the numbers of the format:
finite ones, `±inf` and NaN, with the operations of IEEE 754.

Simplification: zero has no sign.  Only a division by zero could tell the two zeros apart.
-/

namespace StdBLAS

/-- A rounding of the real numbers, and the largest finite number. -/
structure Format where
  rnd : ℝ → ℝ
  big : ℝ
  mono : Monotone rnd
  idem : ∀ x, rnd (rnd x) = rnd x
  zero : rnd 0 = 0
  one : rnd 1 = 1
  rnd_big : rnd big = big
  one_le_big : 1 ≤ big

/-- Numbers of a format. -/
inductive FP (f : Format) where
  | fin (x : ℝ)
  | inf (negative : Bool)
  | nan

namespace FP
variable {f : Format}

/-- The number that represents `x`: rounded, infinite if too large. -/
noncomputable def ofReal (f : Format) (x : ℝ) : FP f := open Classical in
  if |f.rnd x| ≤ f.big then fin (f.rnd x) else inf (decide (x < 0))

/-- The sign of a number that is not a NaN. -/
noncomputable def neg? : FP f → Bool := open Classical in fun
  | fin x => decide (x < 0)
  | inf s => s
  | nan => false

/-- Addition: opposite infinities give NaN. -/
noncomputable def add : FP f → FP f → FP f
  | fin x, fin y => ofReal f (x + y)
  | fin _, inf s => inf s
  | inf s, fin _ => inf s
  | inf s, inf t => if s = t then inf s else nan
  | nan, _ => nan
  | _, nan => nan

/-- The opposite number. -/
def neg : FP f → FP f
  | fin x => fin (-x)
  | inf s => inf (!s)
  | nan => nan

/-- Multiplication: `0 * inf` is NaN. -/
noncomputable def mul : FP f → FP f → FP f := open Classical in fun
  | fin x, fin y => ofReal f (x * y)
  | fin x, inf s => if x = 0 then nan else inf (xor (decide (x < 0)) s)
  | inf s, fin y => if y = 0 then nan else inf (xor s (decide (y < 0)))
  | inf s, inf t => inf (xor s t)
  | nan, _ => nan
  | _, nan => nan

/-- Division: `0 / 0` and `inf / inf` are NaN, other divisions by zero give an infinity. -/
noncomputable def div : FP f → FP f → FP f := open Classical in fun
  | fin x, fin y =>
    if y = 0 then if x = 0 then nan else inf (decide (x < 0)) else ofReal f (x / y)
  | fin _, inf _ => fin 0
  | inf s, fin y => inf (xor s (decide (y < 0)))
  | inf _, inf _ => nan
  | nan, _ => nan
  | _, nan => nan

/-- Absolute value. -/
noncomputable def abs : FP f → FP f
  | fin x => fin |x|
  | inf _ => inf false
  | nan => nan

/-- Square root: NaN for negative numbers. -/
noncomputable def sqrt : FP f → FP f := open Classical in fun
  | fin x => if x < 0 then nan else ofReal f (Real.sqrt x)
  | inf false => inf false
  | inf true => nan
  | nan => nan

/-- `<`: false if an operand is NaN. -/
noncomputable def lt : FP f → FP f → Bool := open Classical in fun
  | fin x, fin y => decide (x < y)
  | fin _, inf s => !s
  | inf s, fin _ => s
  | inf s, inf t => s && !t
  | nan, _ => false
  | _, nan => false

/-- `!=`: true if an operand is NaN. -/
noncomputable def ne : FP f → FP f → Bool := open Classical in fun
  | fin x, fin y => decide (x ≠ y)
  | inf s, inf t => decide (s ≠ t)
  | _, _ => true

noncomputable instance : Zero (FP f) := ⟨fin 0⟩
noncomputable instance : One (FP f) := ⟨fin 1⟩
noncomputable instance : IntCast (FP f) := ⟨fun z => ofReal f z⟩
noncomputable instance : Add (FP f) := ⟨add⟩
noncomputable instance : Sub (FP f) := ⟨fun a b => add a (neg b)⟩
noncomputable instance : Mul (FP f) := ⟨mul⟩
noncomputable instance : Div (FP f) := ⟨div⟩
noncomputable instance : FloatOps (FP f) := ⟨abs, sqrt, lt, ne⟩
/-- Real elements: `abs` is `std::abs`, there is no imaginary part. -/
noncomputable instance : MagOps (FP f) (FP f) := ⟨abs, abs, fun _ => fin 0, true⟩
instance : ConjOps (FP f) := ⟨id, id⟩

end FP

/-- Exact arithmetic up to a bound. -/
noncomputable def Format.exact (B : ℝ) (hB : 1 ≤ B) : Format where
  rnd := id
  big := B
  mono := monotone_id
  idem _ := rfl
  zero := rfl
  one := rfl
  rnd_big := rfl
  one_le_big := hB

end StdBLAS

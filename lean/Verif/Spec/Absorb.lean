import Verif.Spec.Ieee

/-!
# Elements that every operation passes on

A set of element values (such as NaN) with the property that an operation with such an operand has
such a result.
-/

namespace StdBLAS

/-- Every operation with a `bad` operand has a `bad` result. -/
structure Absorbs {α : Type} [Add α] [Sub α] [Mul α] [Div α] [ConjOps α] (bad : α → Prop) :
    Prop where
  add : ∀ a b, bad a ∨ bad b → bad (a + b)
  sub : ∀ a b, bad a ∨ bad b → bad (a - b)
  mul : ∀ a b, bad a ∨ bad b → bad (a * b)
  div : ∀ a b, bad a ∨ bad b → bad (a / b)
  conj : ∀ a, bad a → bad (ConjOps.conj a)
  re : ∀ a, bad a → bad (ConjOps.re a)

namespace FP
variable {f : Format}

@[simp] theorem nan_add (a : FP f) : nan + a = nan := by cases a <;> rfl
@[simp] theorem add_nan (a : FP f) : a + nan = nan := by cases a <;> rfl
@[simp] theorem nan_sub (a : FP f) : nan - a = nan := by cases a <;> rfl
@[simp] theorem sub_nan (a : FP f) : a - nan = nan := by cases a <;> rfl
@[simp] theorem nan_mul (a : FP f) : nan * a = nan := by cases a <;> rfl
@[simp] theorem mul_nan (a : FP f) : a * nan = nan := by cases a <;> rfl
@[simp] theorem nan_div (a : FP f) : nan / a = nan := by cases a <;> rfl
@[simp] theorem div_nan (a : FP f) : a / nan = nan := by cases a <;> rfl

/-- The NaN of every floating-point format is passed on. -/
theorem absorbs_nan : Absorbs (fun a : FP f => a = nan) where
  add a b := by rintro (rfl | rfl) <;> simp
  sub a b := by rintro (rfl | rfl) <;> simp
  mul a b := by rintro (rfl | rfl) <;> simp
  div a b := by rintro (rfl | rfl) <;> simp
  conj _ h := h
  re _ h := h

end FP
end StdBLAS

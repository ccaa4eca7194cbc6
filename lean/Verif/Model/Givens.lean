import Mathlib.Analysis.Real.Sqrt
import Mathlib.Data.Complex.Basic
import Verif.Core.Mdspan
import Verif.Core.Scalar

/-!
# Model of blas1_givens.hpp

`setup_givens_rotation` works on scalars only: it is modelled as a function over `ℝ` and
`ℂ` with exact arithmetic.  The machine constants `safmin` and `safmn2` are parameters
(`safmx2` is computed from `safmn2` as in the code).  Loops take a number of steps `fuel`
they may use and return `none` when it does not suffice, so that termination is
something to prove.
-/

namespace StdBLAS
open Classical

/-- `blas1_givens.hpp:162-170` and `181-189`: `do { count++; f1 *= k; g1 *= k;
scale = max(|f1|,|g1|); } while (keep scale)`. -/
noncomputable def rescaleLoop (keep : ℝ → Prop) (k : ℝ) :
    Nat → ℝ → ℝ → Nat → Option (ℝ × ℝ × Nat)
  | 0, _, _, _ => none
  | fuel + 1, f, g, count =>
    let f1 := f * k
    let g1 := g * k
    if keep (max |f1| |g1|) then rescaleLoop keep k fuel f1 g1 (count + 1)
    else some (f1, g1, count + 1)

/-- `blas1_givens.hpp:172-174`, `191-193` and `203-205`: `r = sqrt(f1*f1 + g1*g1); cs = f1/r; sn = g1/r`. -/
noncomputable def plainRotation (f1 g1 : ℝ) : ℝ × ℝ × ℝ :=
  let r := Real.sqrt (f1 * f1 + g1 * g1)
  (f1 / r, g1 / r, r)

/-- `blas1_givens.hpp:175-177` and `194-196`: multiply `r` by `k`, `count` times. -/
def scaleBack (k : ℝ) : Nat → ℝ → ℝ
  | 0, r => r
  | n + 1, r => scaleBack k n (r * k)

/-- `blas1_givens.hpp:112-215` `setup_givens_rotation`, real version; result `(cs, sn, r)`.
Exact real arithmetic: overflow, underflow and NaN do not exist here. -/
noncomputable def setupGivensReal (fuel : Nat) (safmn2 f g : ℝ) : Option (ℝ × ℝ × ℝ) :=
  let safmx2 := 1 / safmn2
  if g = 0 then some (1, 0, f)
  else if f = 0 then some (0, 1, g)
  else do
    let scale := max |f| |g|
    let (cs, sn, r) ←
      if scale ≥ safmx2 then do
        let (f1, g1, count) ← rescaleLoop (fun s => s ≥ safmx2) safmn2 fuel f g 0
        let (cs, sn, r) := plainRotation f1 g1
        some (cs, sn, scaleBack safmx2 count r)
      else if scale ≤ safmn2 then do
        let (f1, g1, count) ← rescaleLoop (fun s => s ≤ safmn2) safmx2 fuel f g 0
        let (cs, sn, r) := plainRotation f1 g1
        some (cs, sn, scaleBack safmn2 count r)
      else some (plainRotation f g)
    if |f| > |g| ∧ cs < 0 then some (-cs, -sn, -r) else some (cs, sn, r)

/-- `blas1_givens.hpp:219-226` `abs1`. -/
noncomputable def abs1 (z : ℂ) : ℝ := max |z.re| |z.im|

/-- `blas1_givens.hpp:229-234` `abssq`. -/
noncomputable def abssq (z : ℂ) : ℝ := z.re * z.re + z.im * z.im

/-- `std::hypot`. -/
noncomputable def hypot (a b : ℝ) : ℝ := Real.sqrt (a * a + b * b)

/-- `blas1_givens.hpp:272-279` (`label10`) and `288-295` (`label20`): multiply `fs`, `gs` and
`scale` by `k` until `keep scale` fails; returns also how often. -/
noncomputable def rescaleLoopC (keep : ℝ → Prop) (k : ℝ) :
    Nat → ℂ → ℂ → ℝ → Nat → Option (ℂ × ℂ × Nat)
  | 0, _, _, _, _ => none
  | fuel + 1, fs, gs, scale, count =>
    let fs1 := fs * (k : ℂ)
    let gs1 := gs * (k : ℂ)
    let scale1 := scale * k
    if keep scale1 then rescaleLoopC keep k fuel fs1 gs1 scale1 (count + 1)
    else some (fs1, gs1, count + 1)

/-- `blas1_givens.hpp:366`: `for (int i = 1; i >= -count; --i)`, with `m = -count ≥ 1`: the
number of iterations.  Starting at `1` and counting down while `i ≥ m`, it is one
iteration for `m = 1` and none for `m ≥ 2`. -/
def downIterations (m : Nat) : Nat := 2 - m

/-- `blas1_givens.hpp:297-372`: the part after scaling; `up` is `count` if positive, `down` is
`-count` if positive. -/
noncomputable def givensComplexTail (safmin safmn2 safmx2 : ℝ) (f g fs gs : ℂ) (up down : Nat) :
    ℝ × ℂ × ℂ :=
  let f2 := abssq fs
  let g2 := abssq gs
  if f2 ≤ max g2 1 * safmin then
    if f = 0 then
      let d := hypot gs.re gs.im
      (0, ⟨gs.re / d, -gs.im / d⟩, (hypot g.re g.im : ℂ))
    else
      let f2s := hypot fs.re fs.im
      let g2s := Real.sqrt g2
      let cs := f2s / g2s
      let ff : ℂ :=
        if abs1 f > 1 then
          let d := hypot f.re f.im
          ⟨f.re / d, f.im / d⟩
        else
          let dr := safmx2 * f.re
          let di := safmx2 * f.im
          let d := hypot dr di
          ⟨dr / d, di / d⟩
      let sn := ff * (⟨gs.re / g2s, -gs.im / g2s⟩ : ℂ)
      (cs, sn, (cs : ℂ) * f + sn * g)
  else
    let f2s := Real.sqrt (1 + g2 / f2)
    let r : ℂ := ⟨f2s * fs.re, f2s * fs.im⟩
    let cs := 1 / f2s
    let d := f2 + g2
    let sn : ℂ := (⟨r.re / d, r.im / d⟩ : ℂ) * (starRingEnd ℂ) gs
    let r' := if 0 < up then (fun z : ℂ => z * (safmx2 : ℂ))^[up] r
      else if 0 < down then (fun z : ℂ => z * (safmn2 : ℂ))^[downIterations down] r
      else r
    (cs, sn, r')

/-- `blas1_givens.hpp:237-372` `setup_givens_rotation`, complex version; result `(cs, sn, r)`.
Exact arithmetic, so `isnan` is false. -/
noncomputable def setupGivensComplex (fuel : Nat) (safmin safmn2 : ℝ) (f g : ℂ) :
    Option (ℝ × ℂ × ℂ) :=
  let safmx2 := 1 / safmn2
  let scale := max (abs1 f) (abs1 g)
  if scale ≥ safmx2 then do
    let (fs, gs, count) ← rescaleLoopC (fun s => s ≥ safmx2) safmn2 fuel f g scale 0
    some (givensComplexTail safmin safmn2 safmx2 f g fs gs count 0)
  else if scale ≤ safmn2 then
    if g = 0 then some (1, 0, f)
    else do
      let (fs, gs, count) ← rescaleLoopC (fun s => s ≤ safmn2) safmx2 fuel f g scale 0
      some (givensComplexTail safmin safmn2 safmx2 f g fs gs 0 count)
  else some (givensComplexTail safmin safmn2 safmx2 f g f g 0 0)

variable {α : Type}

/-- `blas1_givens.hpp:388-406` `apply_givens_rotation` with real `s`. -/
def applyGivens [Add α] [Sub α] [Mul α] (x y : Vec) (c s : α) : Prog α Unit :=
  forUp 0 x.ext fun i => do
    let xi ← x.get i
    let yi ← y.get i
    let dtemp := c * xi + s * yi
    let yi ← y.get i
    let xi ← x.get i
    y.set i (c * yi - s * xi)
    x.set i dtemp

/-- `blas1_givens.hpp:483-502` `apply_givens_rotation` with complex `s`. -/
def applyGivensC [Add α] [Sub α] [Mul α] [ConjOps α] (x y : Vec) (c s : α) : Prog α Unit :=
  forUp 0 x.ext fun i => do
    let xi ← x.get i
    let yi ← y.get i
    let dtemp := c * xi + s * yi
    let yi ← y.get i
    let xi ← x.get i
    y.set i (c * yi - ConjOps.conj s * xi)
    x.set i dtemp

end StdBLAS

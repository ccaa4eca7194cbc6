import Verif.Core.FloatOps

/-!
# `setup_givens_rotation` for every floating-point type

The functions of `Givens.lean` once more, for an arbitrary type `R` with its own operations: they may
round, overflow, underflow and return NaN.  `Lemmas/GivensFloat.lean` proves that with `R = ℝ` they
are the functions of `Givens.lean`.  `safmn2` is a parameter; the code computes it from constants of
the type (`pow(base, int(log(safmin / eps) / log(base) / two))`, a power of two).
-/

namespace StdBLAS
variable {R : Type} [Zero R] [One R] [Add R] [Mul R] [Div R] [FloatOps R]

/-- `a >= b`: false if an operand is NaN. -/
def geOf (a b : R) : Bool := FloatOps.lt b a || !FloatOps.ne a b

/-- The `do ... while` loops of the real version, `blas1_givens.hpp:162-170` and `181-189`: multiply
`f1` and `g1` by `k` while the larger magnitude satisfies `keep`; at most `fuel` times, `none` if
that does not suffice. -/
def rescaleOf (keep : R → Bool) (k : R) : Nat → R → R → Nat → Option (R × R × Nat)
  | 0, _, _, _ => none
  | fuel + 1, f, g, count =>
    let f1 := f * k
    let g1 := g * k
    let scale := stdMax (FloatOps.abs f1) (FloatOps.abs g1)
    if keep scale then rescaleOf keep k fuel f1 g1 (count + 1) else some (f1, g1, count + 1)

/-- `blas1_givens.hpp:172-174`, `191-193` and `203-205`: `r = sqrt(f1*f1 + g1*g1); cs = f1/r;
sn = g1/r`; returns `(cs, sn, r)`. -/
def rotationOf (f1 g1 : R) : R × R × R :=
  let r := FloatOps.sqrt (f1 * f1 + g1 * g1)
  (f1 / r, g1 / r, r)

/-- `blas1_givens.hpp:175-177` and `194-196`: multiply `r` by `k`, `count` times. -/
def rescaleBackOf (k : R) : Nat → R → R
  | 0, r => r
  | n + 1, r => rescaleBackOf k n (r * k)

/-- `blas1_givens.hpp:155-206`: `cs`, `sn` and `r` of two nonzero numbers, before their signs are
chosen. -/
def givensCore (fuel : Nat) (safmn2 f g : R) : Option (R × R × R) :=
  let safmx2 := 1 / safmn2
  let scale := stdMax (FloatOps.abs f) (FloatOps.abs g)
  if geOf scale safmx2 then do
    let (f1, g1, count) ← rescaleOf (fun s => geOf s safmx2) safmn2 fuel f g 0
    let (cs, sn, r) := rotationOf f1 g1
    some (cs, sn, rescaleBackOf safmx2 count r)
  else if geOf safmn2 scale then do
    let (f1, g1, count) ← rescaleOf (fun s => geOf safmn2 s) safmx2 fuel f g 0
    let (cs, sn, r) := rotationOf f1 g1
    some (cs, sn, rescaleBackOf safmn2 count r)
  else some (rotationOf f g)

/-- `blas1_givens.hpp:112-215` `setup_givens_rotation`, real version; result `(cs, sn, r)`, `none` if
a loop needs more than `fuel` iterations. -/
def setupGivensOf [Neg R] (fuel : Nat) (safmn2 f g : R) : Option (R × R × R) :=
  if !FloatOps.ne g 0 then some (1, 0, f)
  else if !FloatOps.ne f 0 then some (0, 1, g)
  else do
    let (cs, sn, r) ← givensCore fuel safmn2 f g
    if FloatOps.lt (FloatOps.abs g) (FloatOps.abs f) && FloatOps.lt cs 0 then some (-cs, -sn, -r)
    else some (cs, sn, r)

/-- `blas1_givens.hpp:219-226` `abs1`: the larger of the magnitudes of the real and imaginary part. -/
def abs1Of (re im : R) : R := stdMax (FloatOps.abs re) (FloatOps.abs im)

/-- The loops of the complex version, `blas1_givens.hpp:271-279` (`label10`) and `287-295`
(`label20`): multiply `scale` and all parts of `fs` and `gs` by `k` until `keep scale` fails.  The
factor is real: a complex number times a real one is two products.  Returns `fs`, `gs` and the
number of iterations. -/
def rescaleCplxOf (keep : R → Bool) (k : R) :
    Nat → R × R → R × R → R → Nat → Option ((R × R) × (R × R) × Nat)
  | 0, _, _, _, _ => none
  | fuel + 1, fs, gs, scale, count =>
    let fs1 := (fs.1 * k, fs.2 * k)
    let gs1 := (gs.1 * k, gs.2 * k)
    let scale1 := scale * k
    if keep scale1 then rescaleCplxOf keep k fuel fs1 gs1 scale1 (count + 1)
    else some (fs1, gs1, count + 1)

/-- `blas1_givens.hpp:229-234` `abssq`. -/
def abssqOf (z : R × R) : R := z.1 * z.1 + z.2 * z.2

/-- Product of two complex numbers, `std::complex` `operator*`.  Simplification: the recovery of
infinities from a NaN result (annex G of C) is left out. -/
def cmulOf [Sub R] (a b : R × R) : R × R := (a.1 * b.1 - a.2 * b.2, a.1 * b.2 + a.2 * b.1)

/-- `blas1_givens.hpp:297-372`: the part after scaling; `up` is `count` if positive, `down` is
`-count` if positive; `hyp` is `hypot`.  The loop at 366 runs `2 - down` times (see `downIterations`
in `Givens.lean`). -/
def givensTailOf [Sub R] [Neg R] (hyp : R → R → R) (safmin safmn2 safmx2 : R) (f g fs gs : R × R)
    (up down : Nat) : R × (R × R) × (R × R) :=
  let f2 := abssqOf fs
  let g2 := abssqOf gs
  if geOf (stdMax g2 1 * safmin) f2 then
    if !FloatOps.ne f.1 0 && !FloatOps.ne f.2 0 then
      let d := hyp gs.1 gs.2
      (0, (gs.1 / d, -gs.2 / d), (hyp g.1 g.2, 0))
    else
      let f2s := hyp fs.1 fs.2
      let g2s := FloatOps.sqrt g2
      let cs := f2s / g2s
      let ff : R × R :=
        if FloatOps.lt 1 (abs1Of f.1 f.2) then
          let d := hyp f.1 f.2
          (f.1 / d, f.2 / d)
        else
          let dr := safmx2 * f.1
          let di := safmx2 * f.2
          let d := hyp dr di
          (dr / d, di / d)
      let sn := cmulOf ff (gs.1 / g2s, -gs.2 / g2s)
      let sg := cmulOf sn g
      (cs, sn, (cs * f.1 + sg.1, cs * f.2 + sg.2))
  else
    let f2s := FloatOps.sqrt (1 + g2 / f2)
    let r := (f2s * fs.1, f2s * fs.2)
    let cs := 1 / f2s
    let d := f2 + g2
    let sn := cmulOf (r.1 / d, r.2 / d) (gs.1, -gs.2)
    let r' := if 0 < up then (rescaleBackOf safmx2 up r.1, rescaleBackOf safmx2 up r.2)
      else if 0 < down then (rescaleBackOf safmn2 (2 - down) r.1, rescaleBackOf safmn2 (2 - down) r.2)
      else r
    (cs, sn, r')

/-- `blas1_givens.hpp:237-372` `setup_givens_rotation`, complex version; result `(cs, sn, r)`, `none`
if a loop needs more than `fuel` iterations.  `isnan(abs(g))` is `gNan`. -/
def setupGivensCplxOf [Sub R] [Neg R] (hyp : R → R → R) (fuel : Nat) (safmin safmn2 : R)
    (f g : R × R) (gNan : Bool) : Option (R × (R × R) × (R × R)) :=
  let safmx2 := 1 / safmn2
  let scale := stdMax (abs1Of f.1 f.2) (abs1Of g.1 g.2)
  if geOf scale safmx2 then do
    let (fs, gs, count) ← rescaleCplxOf (fun s => geOf s safmx2) safmn2 fuel f g scale 0
    some (givensTailOf hyp safmin safmn2 safmx2 f g fs gs count 0)
  else if geOf safmn2 scale then
    if (!FloatOps.ne g.1 0 && !FloatOps.ne g.2 0) || gNan then some (1, (0, 0), f)
    else do
      let (fs, gs, count) ← rescaleCplxOf (fun s => geOf safmn2 s) safmx2 fuel f g scale 0
      some (givensTailOf hyp safmin safmn2 safmx2 f g fs gs 0 count)
  else some (givensTailOf hyp safmin safmn2 safmx2 f g f g 0 0)

end StdBLAS

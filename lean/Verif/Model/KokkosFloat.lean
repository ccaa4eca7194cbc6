import Verif.Core.FloatOps
import Verif.Model.FloatReductions
import Verif.Model.Kokkos

/-!
# The reductions of the Kokkos backend for every `Scalar` type

The same functions as in `Model/Kokkos`, which are for `Scalar = ℝ`.  Here `Scalar` is any type with
its own operations, which satisfy no law; for `ℝ` both models agree (`Lemmas/KokkosFloat`).

`Kokkos::Max<Scalar>::join(dest, src)` is `if (dest < src) dest = src`, which leaves in `dest` the
value `stdMax dest src`.  Its identity value, from which every accumulator starts, is a parameter
`low` (for `float` and `double` Kokkos has the negative of the largest finite number).
-/

namespace StdBLAS
variable {α R : Type} [Zero R] [Add R] [Mul R] [Div R] [FloatOps R] [MagOps α R]

omit [Mul R] [Div R] [FloatOps R] in
/-- `kk/blas1_vector_abs_sum_kk.hpp:16-38` `vector_abs_sum`. -/
def kkAbsSumOf (x : KVec) (init : R) : Sched α R := do
  let result ← parReduce x.view.ext (fun i (update : R) => do
    let a ← x.view.look i
    pure (update + MagOps.abs a)) 0 (fun a b => a + b)
  pure (result + init)

omit [Div R] in
/-- `kk/blas1_vector_norm2_kk.hpp:14-43` `vector_norm2`. -/
def kkNorm2Of (x : KVec) (init : R) : Sched α R := do
  let result ← parReduce x.view.ext (fun i (update : R) => do
    let a ← x.view.look i
    let tmp : R := MagOps.abs a
    pure (update + tmp * tmp)) 0 (fun a b => a + b)
  pure (FloatOps.sqrt (result + init))

/-- `kk/blas1_vector_sum_of_squares_kk.hpp:15-54` `vector_sum_of_squares`. -/
def kkSumOfSquaresOf (low : R) (x : KVec) (init : SumOfSquaresOf R) :
    Sched α (SumOfSquaresOf R) := do
  let scalingFactor ← parReduce x.view.ext (fun i (lmax : R) => do
    let a ← x.view.look i
    pure (stdMax lmax (MagOps.abs a))) low stdMax
  let resultScaling := stdMax scalingFactor init.scalingFactor
  let ssq ← parReduce x.view.ext (fun i (update : R) => do
    let a ← x.view.look i
    let tmp := MagOps.abs a / resultScaling
    pure (update + tmp * tmp)) 0 (fun a b => a + b)
  pure ⟨resultScaling, ssq +
    (init.scalingFactor * init.scalingFactor * init.scaledSumOfSquares) /
      (scalingFactor * scalingFactor)⟩

/-- `kk/blas1_matrix_frob_norm_kk.hpp:16-71` `matrix_frob_norm`. -/
def kkFrobNormOf (low : R) (A : KMat) (init : R) : Sched α R :=
  if A.rows = 0 ∨ A.cols = 0 then pure init
  else if A.rows = 1 ∧ A.cols = 1 then do
    let a ← Sched.lift (A.toMat.get 0 0)
    pure (init + MagOps.abs a)
  else do
    let scalingFactor ← parReduce (A.view.rows * A.view.cols) (fun k (lmax : R) => do
      let a ← A.view.look (k / A.view.cols) (k % A.view.cols)
      pure (stdMax lmax (MagOps.abs a))) low stdMax
    let ssq ← parReduce (A.view.rows * A.view.cols) (fun k (update : R) => do
      let a ← A.view.look (k / A.view.cols) (k % A.view.cols)
      let tmp := MagOps.abs a / scalingFactor
      pure (update + tmp * tmp)) 0 (fun a b => a + b)
    pure (FloatOps.sqrt (init + scalingFactor * scalingFactor * ssq))

omit [Zero R] [Mul R] [Div R] in
/-- `kk/blas1_matrix_inf_norm_kk.hpp:16-49` `matrix_inf_norm`. -/
def kkInfNormOf (low : R) (A : KMat) (init : R) : Sched α R :=
  if A.rows = 0 ∨ A.cols = 0 then pure init
  else do
    let result ← parReduce A.view.rows (fun i (update : R) => do
      let a ← A.view.look i 0
      let mysum ← Rd.foldUp 1 A.view.cols (MagOps.abs a) fun s j => do
        let b ← A.view.look i j
        pure (s + MagOps.abs b)
      pure (stdMax update mysum)) low stdMax
    pure (init + result)

omit [Zero R] [Mul R] [Div R] in
/-- `kk/blas1_matrix_one_norm_kk.hpp:16-49` `matrix_one_norm`.  Only `extent(1)` is tested
for zero. -/
def kkOneNormOf (low : R) (A : KMat) (init : R) : Sched α R :=
  if A.cols = 0 then pure init
  else do
    let result ← parReduce A.view.cols (fun j (update : R) => do
      let a ← A.view.look 0 j
      let mysum ← Rd.foldUp 1 A.view.rows (MagOps.abs a) fun s i => do
        let b ← A.view.look i j
        pure (s + MagOps.abs b)
      pure (stdMax update mysum)) low stdMax
    pure (init + result)

end StdBLAS

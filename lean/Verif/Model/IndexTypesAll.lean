import Verif.Model.IndexTypes
import Verif.Model.FloatReductions
import Verif.Model.Givens

/-!
# The other algorithms with their C++ integer types

The kernels of `Model/Blas1`, `Blas2`, `Blas3`, `FloatReductions` and `Givens` that are not in
`Model/IndexTypes`, with the integer types of the source, in the same way: `tA`, `tx`, ... are the
index types of the mdspans (the type of `extent(r)`), `size_type` is the `common_type` the
function declares, counters have their declared type, and arithmetic, comparisons and
conversions follow `Core/IntTypes`.  `fuel` bounds the iterations of each loop.
-/

namespace StdBLAS
open IntTy
variable {α R : Type}

/-- `make_unsigned_t<T>`: `extents<T, ...>::size_type`. -/
def IntTy.makeUnsigned (t : IntTy) : IntTy := ⟨false, t.bits⟩

/-- `a == b` for operands of types `t` and `u`. -/
def IntTy.eq (t u : IntTy) (a b : Int) : Bool := (usual t u).cast a = (usual t u).cast b

/-- `common_type_t<T, U, V, W>` -/
def common4 (t u v w : IntTy) : IntTy := common (common3 t u v) w

/-- `y(i) += v` -/
def Vec.addAt [Add α] (y : Vec) (t : IntTy) (i : Int) (v : α) : Prog α Unit := do
  let o ← y.at_ t i
  y.put t i (o + v)

/-- `for (size_type i = start; i < bound; ++i) body` where `bound` has type `u`. -/
def upTo (sz u : IntTy) (fuel : Nat) (start bound : Int) (body : Int → Prog α Unit) :
    Prog α Unit := cForU (fun i => lt sz u i bound) (incr sz) fuel start body

/-- The same loop with a local variable that the body updates. -/
def foldUpTo {σ : Type} (sz u : IntTy) (fuel : Nat) (start bound : Int) (s : σ)
    (body : σ → Int → Prog α σ) : Prog α σ :=
  cFor (fun i => lt sz u i bound) (incr sz) fuel start s body

/-! ## BLAS 1 -/

/-- `blas1_scale.hpp:59-66`: `SizeType i` 63. -/
def scale1T [Mul α] (fuel : Nat) (tx : IntTy) (alpha : α) (x : Vec) : Prog α Unit :=
  upTo tx tx fuel 0 x.ext fun i => do
    let v ← x.at_ tx i
    x.put tx i (v * alpha)

/-- `blas1_scale.hpp:75-84`: `SizeType j` 79, `SizeType i` 80. -/
def scale2T [Mul α] (fuel : Nat) (tA : IntTy) (alpha : α) (A : Mat) : Prog α Unit :=
  upTo tA tA fuel 0 A.cols fun j => upTo tA tA fuel 0 A.rows fun i => do
    let v ← A.at_ tA i j
    A.put tA i j (v * alpha)

/-- `blas1_linalg_copy.hpp:63-74`: `size_type` 70, loop 71. -/
def copy1T (fuel : Nat) (tx ty : IntTy) (x : VecV α) (y : Vec) : Prog α Unit :=
  upTo (common tx ty) ty fuel 0 y.ext fun i => do
    let v ← x.at_ tx i
    y.put ty i v

/-- `blas1_linalg_copy.hpp:88-104`: `size_type` 98, loops 99-100. -/
def copy2T (fuel : Nat) (tx ty : IntTy) (x : MatV α) (y : Mat) : Prog α Unit :=
  let sz := common tx ty
  upTo sz ty fuel 0 y.cols fun j => upTo sz ty fuel 0 y.rows fun i => do
    let v ← x.at_ tx i j
    y.put ty i j v

/-- `blas1_linalg_swap.hpp:65-79`: `size_type` 74, loop 76. -/
def swap1T (fuel : Nat) (tx ty : IntTy) (x y : Vec) : Prog α Unit :=
  upTo (common tx ty) ty fuel 0 y.ext fun i => do
    let tmp ← x.at_ tx i
    let w ← y.at_ ty i
    x.put tx i w
    y.put ty i tmp

/-- `blas1_linalg_swap.hpp:93-112`: `size_type` 105, loops 107-108. -/
def swap2T (fuel : Nat) (tx ty : IntTy) (x y : Mat) : Prog α Unit :=
  let sz := common tx ty
  upTo sz ty fuel 0 y.cols fun j => upTo sz ty fuel 0 y.rows fun i => do
    let tmp ← x.at_ tx i j
    let w ← y.at_ ty i j
    x.put tx i j w
    y.put ty i j tmp

/-- `blas1_linalg_add.hpp:68-87`: `size_type` 83, loop 84. -/
def add1T [Add α] (fuel : Nat) (tx ty tz : IntTy) (x y : VecV α) (z : Vec) : Prog α Unit :=
  upTo (common3 tx ty tz) tz fuel 0 z.ext fun i => do
    let a ← x.at_ tx i
    let b ← y.at_ ty i
    z.put tz i (a + b)

/-- `blas1_linalg_add.hpp:107-138`: `size_type` 132, loops over the extents of `x` 133-134. -/
def add2T [Add α] (fuel : Nat) (tx ty tz : IntTy) (x y : MatV α) (z : Mat) : Prog α Unit :=
  let sz := common3 tx ty tz
  upTo sz tx fuel 0 x.cols fun j => upTo sz tx fuel 0 x.rows fun i => do
    let a ← x.at_ tx i j
    let b ← y.at_ ty i j
    z.put tz i j (a + b)

/-- `blas1_dot.hpp:92-107`: `size_type` 102, loop 103. -/
def dotT [Add α] [Mul α] (fuel : Nat) (t1 t2 : IntTy) (v1 v2 : VecV α) (init : α) : Prog α α :=
  foldUpTo (common t1 t2) t1 fuel 0 v1.ext init fun s k => do
    let a ← v1.at_ t1 k
    let b ← v2.at_ t2 k
    pure (s + a * b)

/-- `blas1_dot.hpp:172-178` `dotc`: `conjugated(v1)` has the index type of `v1`. -/
def dotcT [Add α] [Mul α] [ConjOps α] (fuel : Nat) (t1 t2 : IntTy) (v1 v2 : VecV α) (init : α) :
    Prog α α := dotT fuel t1 t2 v1.conjugated v2 init

/-- `blas1_givens.hpp:388-406`: `index_type` 399, `x_extent_0` 400, loop 401. -/
def applyGivensT [Add α] [Sub α] [Mul α] (fuel : Nat) (tx ty : IntTy) (x y : Vec) (c s : α) :
    Prog α Unit :=
  let sz := common tx ty
  upTo sz sz fuel 0 (sz.cast x.ext) fun i => do
    let xi ← x.at_ tx i
    let yi ← y.at_ ty i
    let dtemp := c * xi + s * yi
    let yi ← y.at_ ty i
    let xi ← x.at_ tx i
    y.put ty i (c * yi - s * xi)
    x.put tx i dtemp

/-- `blas1_givens.hpp:483-502`: `index_type` 495, `x_extent_0` 496, loop 497. -/
def applyGivensCT [Add α] [Sub α] [Mul α] [ConjOps α] (fuel : Nat) (tx ty : IntTy) (x y : Vec)
    (c s : α) : Prog α Unit :=
  let sz := common tx ty
  upTo sz sz fuel 0 (sz.cast x.ext) fun i => do
    let xi ← x.at_ tx i
    let yi ← y.at_ ty i
    let dtemp := c * xi + s * yi
    let yi ← y.at_ ty i
    let xi ← x.at_ tx i
    y.put ty i (c * yi - ConjOps.conj s * xi)
    x.put tx i dtemp

section
variable [Zero R] [One R] [Add R] [Mul R] [Div R] [FloatOps R] [MagOps α R]

/-- `blas1_vector_sum_of_squares.hpp:91-126`: `x.extent(0) == 0` 98, `SizeType i` 107. -/
def vectorSumOfSquaresT (fuel : Nat) (tx : IntTy) (x : VecV α) (init : SumOfSquaresOf R) :
    Prog α (SumOfSquaresOf R) :=
  if eq tx int x.ext 0 then pure init else
  foldUpTo tx tx fuel 0 x.ext init fun s i => do
    let v ← x.at_ tx i
    if FloatOps.ne (MagOps.abs v : R) 0 then
      let v ← x.at_ tx i
      let absxi : R := MagOps.abs v
      if FloatOps.lt s.scalingFactor absxi then
        let quotient := s.scalingFactor / absxi
        pure ⟨absxi, 1 + s.scaledSumOfSquares * quotient * quotient⟩
      else
        let quotient := absxi / s.scalingFactor
        pure ⟨s.scalingFactor, s.scaledSumOfSquares + quotient * quotient⟩
    else pure s

/-- `blas1_vector_norm2.hpp:83-100` `vector_two_norm`. -/
def vectorTwoNormT (fuel : Nat) (tx : IntTy) (x : VecV α) (init : R) : Prog α R := do
  let r ← vectorSumOfSquaresT fuel tx x (⟨0, 1⟩ : SumOfSquaresOf R)
  pure (init + r.scalingFactor * FloatOps.sqrt r.scaledSumOfSquares)

/-- `blas1_vector_abs_sum.hpp:82-108`: `SizeType numElt` 94, `SizeType i` 96 and 101. -/
def vectorAbsSumT (fuel : Nat) (tv : IntTy) (v : VecV α) (init : R) : Prog α R :=
  let numElt := tv.cast v.ext
  if MagOps.isArith α R then
    foldUpTo tv tv fuel 0 numElt init fun s i => do
      let a ← v.at_ tv i
      pure (s + MagOps.abs a)
  else
    foldUpTo tv tv fuel 0 numElt init fun s i => do
      let a ← v.at_ tv i
      let b ← v.at_ tv i
      pure (s + MagOps.absRe a + MagOps.absIm b)

/-- `blas1_vector_idx_abs_max.hpp:75-117`: the result, `maxInd` and the counter `i` from 1 have type
`SizeType` (76, 89, 91, 101, 105); an empty vector gives `numeric_limits<SizeType>::max()`. -/
def vectorIdxAbsMaxT (R : Type) [Add R] [FloatOps R] [MagOps α R] (fuel : Nat) (tv : IntTy)
    (v : VecV α) : Prog α Int :=
  if eq tv int v.ext 0 then pure tv.max else do
    let a ← v.at_ tv 0
    let r ← foldUpTo tv tv fuel 1 v.ext ((0 : Int), idxMagnitudeOf R a) fun s i => do
      let b ← v.at_ tv i
      if FloatOps.lt s.2 (idxMagnitudeOf R b) then pure (i, idxMagnitudeOf R b) else pure s
    pure r.1

/-- `blas1_matrix_frob_norm.hpp:87-126`: special cases 98-104, loops 109-110. -/
def matrixFrobNormT (fuel : Nat) (tA : IntTy) (A : MatV α) (init : R) : Prog α R :=
  if eq tA int A.rows 0 ∨ eq tA int A.cols 0 then pure init
  else if eq tA tA A.rows 1 ∧ eq tA tA A.cols 1 then do
    let a ← A.at_ tA 0 0
    pure (init + MagOps.abs a)
  else do
    let r ← foldUpTo tA tA fuel 0 A.rows (⟨0, 1⟩ : SumOfSquaresOf R) fun s i =>
      foldUpTo tA tA fuel 0 A.cols s fun s j => do
        let a ← A.at_ tA i j
        pure (frobStepOf s (MagOps.abs a))
    pure (init + r.scalingFactor * FloatOps.sqrt r.scaledSumOfSquares)

/-- `blas1_matrix_one_norm.hpp:89-118`: special cases 100-106, loops 110-112. -/
def matrixOneNormT (fuel : Nat) (tA : IntTy) (A : MatV α) (init : R) : Prog α R :=
  if eq tA int A.rows 0 ∨ eq tA int A.cols 0 then pure init
  else if eq tA tA A.rows 1 ∧ eq tA tA A.cols 1 then do
    let a ← A.at_ tA 0 0
    pure (init + MagOps.abs a)
  else
    foldUpTo tA tA fuel 0 A.cols init fun result j => do
      let colSum ← foldUpTo tA tA fuel 0 A.rows init fun s i => do
        let a ← A.at_ tA i j
        pure (s + MagOps.abs a)
      pure (stdMax colSum result)

/-- `blas1_matrix_inf_norm.hpp:88-115`: special cases 99-105, loops 107-109. -/
def matrixInfNormT (fuel : Nat) (tA : IntTy) (A : MatV α) (init : R) : Prog α R :=
  if eq tA int A.rows 0 ∨ eq tA int A.cols 0 then pure init
  else if eq tA tA A.rows 1 ∧ eq tA tA A.cols 1 then do
    let a ← A.at_ tA 0 0
    pure (init + MagOps.abs a)
  else
    foldUpTo tA tA fuel 0 A.rows init fun result i => do
      let rowSum ← foldUpTo tA tA fuel 0 A.cols init fun s j => do
        let a ← A.at_ tA i j
        pure (s + MagOps.abs a)
      pure (stdMax rowSum result)

end

/-! ## BLAS 2: products -/

/-- `blas2_matrix_vector_product.hpp:291-307`: `size_type` 297-300, loops 301 and 303. -/
def gemvT [Add α] [Mul α] [Zero α] (fuel : Nat) (tA tx ty : IntTy) (A : MatV α) (x : VecV α)
    (y : Vec) : Prog α Unit :=
  let sz := common3 tA tx ty
  upTo sz tA fuel 0 A.rows fun i => do
    y.put ty i 0
    upTo sz tA fuel 0 A.cols fun j => do
      let a ← A.at_ tA i j
      let b ← x.at_ tx j
      y.addAt ty i (a * b)

/-- `blas2_matrix_vector_product.hpp:408-426`: `size_type` 415-419 (with
`Extents_A::size_type`, which is unsigned), loops 420 and 422. -/
def gemvUpdateT [Add α] [Mul α] (fuel : Nat) (tA tx ty tz : IntTy) (A : MatV α) (x y : VecV α)
    (z : Vec) : Prog α Unit :=
  let sz := common4 tA.makeUnsigned tx ty tz
  upTo sz tA fuel 0 A.rows fun i => do
    let v ← y.at_ ty i
    z.put tz i v
    upTo sz tA fuel 0 A.cols fun j => do
      let a ← A.at_ tA i j
      let b ← x.at_ tx j
      z.addAt tz i (a * b)

/-- `blas2_matrix_vector_product.hpp:534-536` (and 787-789, 1049-1051). -/
def fillZeroT [Zero α] (fuel : Nat) (sz tA ty : IntTy) (n : Nat) (y : Vec) : Prog α Unit :=
  upTo sz tA fuel 0 n fun i => y.put ty i 0

/-- `blas2_matrix_vector_product.hpp:657-659` (and 917-919, 1194-1196). -/
def fillFromT (fuel : Nat) (sz tA ty tz : IntTy) (n : Nat) (y : VecV α) (z : Vec) :
    Prog α Unit :=
  upTo sz tA fuel 0 n fun i => do
    let v ← y.at_ ty i
    z.put tz i v

/-- The accumulating part of `symmetric_matrix_vector_product`,
`blas2_matrix_vector_product.hpp:538-557` (overwriting) and 661-680 (updating):
loops `j < A.extent(1)`, `i` from `j + size_type(1)`, `i < j`. -/
def symvAccT [Add α] [Mul α] (fuel : Nat) (sz tA tx tz : IntTy) (A : MatV α)
    (t : Triangle) (x : VecV α) (z : Vec) : Prog α Unit :=
  match t with
  | .lower =>
    upTo sz tA fuel 0 A.cols fun j => do
      let d ← A.at_ tA j j
      let b ← x.at_ tx j
      z.addAt tz j (d * b)
      let lo ← add sz sz j 1
      upTo sz tA fuel (sz.cast lo) A.rows fun i => do
        let aij ← A.at_ tA i j
        let xj ← x.at_ tx j
        z.addAt tz i (aij * xj)
        let xi ← x.at_ tx i
        z.addAt tz j (aij * xi)
  | .upper =>
    upTo sz tA fuel 0 A.cols fun j => do
      upTo sz sz fuel 0 j fun i => do
        let aij ← A.at_ tA i j
        let xj ← x.at_ tx j
        z.addAt tz i (aij * xj)
        let xi ← x.at_ tx i
        z.addAt tz j (aij * xi)
      let d ← A.at_ tA j j
      let b ← x.at_ tx j
      z.addAt tz j (d * b)

/-- `blas2_matrix_vector_product.hpp:523-558`: `size_type` 530-532. -/
def symvT [Add α] [Mul α] [Zero α] (fuel : Nat) (tA tx ty : IntTy) (A : MatV α)
    (t : Triangle) (x : VecV α) (y : Vec) : Prog α Unit := do
  let sz := common3 tA tx ty
  fillZeroT fuel sz tA ty A.rows y
  symvAccT fuel sz tA tx ty A t x y

/-- `blas2_matrix_vector_product.hpp:643-681`: `size_type` 651-655. -/
def symvUpdateT [Add α] [Mul α] (fuel : Nat) (tA tx ty tz : IntTy) (A : MatV α)
    (t : Triangle) (x y : VecV α) (z : Vec) : Prog α Unit := do
  let sz := common4 tA.makeUnsigned tx ty tz.makeUnsigned
  fillFromT fuel sz tA ty tz A.rows y z
  symvAccT fuel sz tA tx tz A t x z

/-- The accumulating part of `hermitian_matrix_vector_product`,
`blas2_matrix_vector_product.hpp:791-810` (overwriting) and 921-940 (updating):
loops `j < A.extent(1)`, `i` from `j + size_type(1)`, `i < j`. -/
def hemvAccT [Add α] [Mul α] [ConjOps α] (fuel : Nat) (sz tA tx tz : IntTy) (A : MatV α)
    (t : Triangle) (x : VecV α) (z : Vec) : Prog α Unit :=
  match t with
  | .lower =>
    upTo sz tA fuel 0 A.cols fun j => do
      let d ← A.at_ tA j j
      let b ← x.at_ tx j
      z.addAt tz j (ConjOps.re d * b)
      let lo ← add sz sz j 1
      upTo sz tA fuel (sz.cast lo) A.rows fun i => do
        let aij ← A.at_ tA i j
        let xj ← x.at_ tx j
        z.addAt tz i (aij * xj)
        let xi ← x.at_ tx i
        z.addAt tz j (ConjOps.conj aij * xi)
  | .upper =>
    upTo sz tA fuel 0 A.cols fun j => do
      upTo sz sz fuel 0 j fun i => do
        let aij ← A.at_ tA i j
        let xj ← x.at_ tx j
        z.addAt tz i (aij * xj)
        let xi ← x.at_ tx i
        z.addAt tz j (ConjOps.conj aij * xi)
      let d ← A.at_ tA j j
      let b ← x.at_ tx j
      z.addAt tz j (ConjOps.re d * b)

/-- `blas2_matrix_vector_product.hpp:776-811`: `size_type` 783-785. -/
def hemvT [Add α] [Mul α] [Zero α] [ConjOps α] (fuel : Nat) (tA tx ty : IntTy) (A : MatV α)
    (t : Triangle) (x : VecV α) (y : Vec) : Prog α Unit := do
  let sz := common3 tA tx ty
  fillZeroT fuel sz tA ty A.rows y
  hemvAccT fuel sz tA tx ty A t x y

/-- `blas2_matrix_vector_product.hpp:903-941`: `size_type` 911-915. -/
def hemvUpdateT [Add α] [Mul α] [ConjOps α] (fuel : Nat) (tA tx ty tz : IntTy) (A : MatV α)
    (t : Triangle) (x y : VecV α) (z : Vec) : Prog α Unit := do
  let sz := common4 tA.makeUnsigned tx ty tz.makeUnsigned
  fillFromT fuel sz tA ty tz A.rows y z
  hemvAccT fuel sz tA tx tz A t x z

/-- The accumulating part of `triangular_matrix_vector_product`,
`blas2_matrix_vector_product.hpp:1052-1076` (overwriting) and 1197-1221 (updating):
`i_lower` 1057 and `i_upper` 1068 are converted to `size_type`. -/
def trmvAccT [Add α] [Mul α] (fuel : Nat) (sz tA tx tz : IntTy) (A : MatV α) (t : Triangle)
    (d : Diag) (x : VecV α) (z : Vec) : Prog α Unit :=
  match t with
  | .lower =>
    upTo sz tA fuel 0 A.cols fun j => do
      let iLower ← (if d = .explicit then pure j else add sz sz j 1)
      upTo sz tA fuel (sz.cast iLower) A.rows fun i => do
        let a ← A.at_ tA i j
        let b ← x.at_ tx j
        z.addAt tz i (a * b)
      if d = .explicit then pure () else do
        let b ← x.at_ tx j
        z.addAt tz j b
  | .upper =>
    upTo sz tA fuel 0 A.cols fun j => do
      let iUpper ← (if d = .explicit then add sz sz j 1 else pure j)
      upTo sz sz fuel 0 (sz.cast iUpper) fun i => do
        let a ← A.at_ tA i j
        let b ← x.at_ tx j
        z.addAt tz i (a * b)
      if d = .explicit then pure () else do
        let b ← x.at_ tx j
        z.addAt tz j b

/-- `blas2_matrix_vector_product.hpp:1037-1077`: `size_type` 1045-1047. -/
def trmvT [Add α] [Mul α] [Zero α] (fuel : Nat) (tA tx ty : IntTy) (A : MatV α) (t : Triangle)
    (d : Diag) (x : VecV α) (y : Vec) : Prog α Unit := do
  let sz := common3 tA tx ty
  fillZeroT fuel sz tA ty A.rows y
  trmvAccT fuel sz tA tx ty A t d x y

/-- `blas2_matrix_vector_product.hpp:1177-1222`: `size_type` 1186-1192. -/
def trmvUpdateT [Add α] [Mul α] (fuel : Nat) (tA tx ty tz : IntTy) (A : MatV α) (t : Triangle)
    (d : Diag) (x y : VecV α) (z : Vec) : Prog α Unit := do
  let sz := common4 tA.makeUnsigned tx ty.makeUnsigned tz.makeUnsigned
  fillFromT fuel sz tA ty tz A.rows y z
  trmvAccT fuel sz tA tx tz A t d x z

/-- `blas2_matrix_vector_product.hpp:1322-1356`: `size_type` 1329,
`size_type j = A.extent(1) - (k + size_type(1))` 1335. -/
def trmvInPlaceT [Add α] [Mul α] (fuel : Nat) (tA ty : IntTy) (A : MatV α) (t : Triangle)
    (d : Diag) (y : Vec) : Prog α Unit :=
  let sz := common tA ty
  match t with
  | .lower =>
    upTo sz tA fuel 0 A.cols fun k => do
      let k1 ← add sz sz k 1
      let j0 ← sub tA (usual sz sz) A.cols k1
      let j := sz.cast j0
      let tmp ← y.at_ ty j
      let lo ← add sz sz j 1
      upTo sz tA fuel (sz.cast lo) A.rows fun i => do
        let a ← A.at_ tA i j
        y.addAt ty i (a * tmp)
      if d = .explicit then do
        let v ← y.at_ ty j
        let a ← A.at_ tA j j
        y.put ty j (v * a)
      else pure ()
  | .upper =>
    upTo sz tA fuel 0 A.cols fun j => do
      let tmp ← y.at_ ty j
      upTo sz sz fuel 0 j fun i => do
        let a ← A.at_ tA i j
        y.addAt ty i (a * tmp)
      if d = .explicit then do
        let v ← y.at_ ty j
        let a ← A.at_ tA j j
        y.put ty j (v * a)
      else pure ()

/-! ## BLAS 2 and 3: rank updates -/

/-- `blas2_matrix_rank_1_update.hpp:177-190`: `size_type` 183, loops 185-186. -/
def gerT [Add α] [Mul α] (fuel : Nat) (tx ty tA : IntTy) (x y : VecV α) (A : Mat) : Prog α Unit :=
  let sz := common3 tx ty tA
  upTo sz tA fuel 0 A.rows fun i => upTo sz tA fuel 0 A.cols fun j => do
    let a ← x.at_ tx i
    let b ← y.at_ ty j
    A.addAt tA i j (a * b)

/-- `blas2_matrix_rank_1_update.hpp:261-267`. -/
def gercT [Add α] [Mul α] [ConjOps α] (fuel : Nat) (tx ty tA : IntTy) (x y : VecV α) (A : Mat) :
    Prog α Unit := gerT fuel tx ty tA x y.conjugated A

/-- The loops of the rank-1 updates of one triangle, `blas2_matrix_rank_1_update.hpp:322-335`
(and 429-442, 535-550, 644-659): `i` from `j`, `i < A.extent(0)`, or `i <= j`. -/
def triangleLoop1T (fuel : Nat) (sz tA : IntTy) (rows cols : Nat) (t : Triangle)
    (pre : Int → Prog α Unit) (body : Int → Int → Prog α Unit) : Prog α Unit :=
  match t with
  | .lower => upTo sz tA fuel 0 cols fun j => do
      pre j
      upTo sz tA fuel j rows fun i => body i j
  | .upper => upTo sz tA fuel 0 cols fun j => do
      pre j
      cForU (fun i => le sz sz i j) (incr sz) fuel 0 fun i => body i j

/-- The loops of the other updates of one triangle, e.g.
`blas2_matrix_rank_2_update.hpp:124-131`, `blas3_matrix_rank_k_update.hpp:154-162`:
`const size_type i_lower = lower_tri ? j : size_type(0)`,
`const size_type i_upper = lower_tri ? C.extent(0) : j+1`, where the second conditional
expression has the common type of `extent(0)` and `j+1`. -/
def triangleLoop2T (fuel : Nat) (sz tC : IntTy) (rows cols : Nat) (t : Triangle)
    (pre : Int → Prog α Unit) (body : Int → Int → Prog α Unit) : Prog α Unit :=
  upTo sz tC fuel 0 cols fun j => do
    let iLower := if t = .lower then j else 0
    let v ← (if t = .lower then pure (rows : Int) else add sz int j 1)
    let iUpper := sz.cast ((common tC (usual sz int)).cast v)
    pre j
    upTo sz sz fuel iLower iUpper fun i => body i j

/-- `A(j,j) = real_if_needed(A(j,j))` -/
def makeDiagRealT [ConjOps α] (A : Mat) (tA : IntTy) (j : Int) : Prog α Unit := do
  let v ← A.at_ tA j j
  A.put tA j j (ConjOps.re v)

/-- `blas2_matrix_rank_1_update.hpp:313-336`: `size_type` 320. -/
def syrAlphaT [Add α] [Mul α] (fuel : Nat) (tx tA : IntTy) (alpha : α)
    (x : VecV α) (A : Mat) (t : Triangle) : Prog α Unit :=
  let sz := common tx tA
  triangleLoop1T fuel sz tA A.rows A.cols t (fun _ => pure ()) fun i j => do
    let a ← x.at_ tx i
    let b ← x.at_ tx j
    A.addAt tA i j (alpha * a * b)

/-- `blas2_matrix_rank_1_update.hpp:421-443`: `size_type` 427. -/
def syrT [Add α] [Mul α] (fuel : Nat) (tx tA : IntTy) (x : VecV α) (A : Mat)
    (t : Triangle) : Prog α Unit :=
  let sz := common tx tA
  triangleLoop1T fuel sz tA A.rows A.cols t (fun _ => pure ()) fun i j => do
    let a ← x.at_ tx i
    let b ← x.at_ tx j
    A.addAt tA i j (a * b)

/-- `blas2_matrix_rank_1_update.hpp:526-551`: `size_type` 533. -/
def herAlphaT [Add α] [Mul α] [ConjOps α] (fuel : Nat) (tx tA : IntTy) (alpha : α)
    (x : VecV α) (A : Mat) (t : Triangle) : Prog α Unit :=
  let sz := common tx tA
  triangleLoop1T fuel sz tA A.rows A.cols t (makeDiagRealT A tA) fun i j => do
    let a ← x.at_ tx i
    let b ← x.at_ tx j
    A.addAt tA i j (alpha * a * ConjOps.conj b)

/-- `blas2_matrix_rank_1_update.hpp:636-660`: `size_type` 642. -/
def herT [Add α] [Mul α] [ConjOps α] (fuel : Nat) (tx tA : IntTy) (x : VecV α) (A : Mat)
    (t : Triangle) : Prog α Unit :=
  let sz := common tx tA
  triangleLoop1T fuel sz tA A.rows A.cols t (makeDiagRealT A tA) fun i j => do
    let a ← x.at_ tx i
    let b ← x.at_ tx j
    A.addAt tA i j (a * ConjOps.conj b)

/-- `blas2_matrix_rank_2_update.hpp:114-132`: `size_type` 121. -/
def syr2T [Add α] [Mul α] (fuel : Nat) (tx ty tA : IntTy) (x y : VecV α) (A : Mat)
    (t : Triangle) : Prog α Unit :=
  let sz := common3 tx ty tA
  triangleLoop2T fuel sz tA A.rows A.cols t (fun _ => pure ()) fun i j => do
    let xi ← x.at_ tx i
    let yj ← y.at_ ty j
    let yi ← y.at_ ty i
    let xj ← x.at_ tx j
    A.addAt tA i j (xi * yj + yi * xj)

/-- `blas2_matrix_rank_2_update.hpp:205-225`: `size_type` 212. -/
def her2T [Add α] [Mul α] [ConjOps α] (fuel : Nat) (tx ty tA : IntTy) (x y : VecV α) (A : Mat)
    (t : Triangle) : Prog α Unit :=
  let sz := common3 tx ty tA
  triangleLoop2T fuel sz tA A.rows A.cols t (makeDiagRealT A tA) fun i j => do
    let xi ← x.at_ tx i
    let yj ← y.at_ ty j
    let yi ← y.at_ ty i
    let xj ← x.at_ tx j
    A.addAt tA i j (xi * ConjOps.conj yj + yi * ConjOps.conj xj)

/-- `blas3_matrix_rank_k_update.hpp:143-163`: `size_type` 152. -/
def syrkAlphaT [Add α] [Mul α] (fuel : Nat) (tA tC : IntTy) (alpha : α)
    (A : MatV α) (C : Mat) (t : Triangle) : Prog α Unit :=
  let sz := common tA tC
  triangleLoop2T fuel sz tC C.rows C.cols t (fun _ => pure ()) fun i j =>
    upTo sz tA fuel 0 A.cols fun k => do
      let a ← A.at_ tA i k
      let b ← A.at_ tA j k
      C.addAt tC i j (alpha * a * b)

/-- `blas3_matrix_rank_k_update.hpp:244-263`: `size_type` 252. -/
def syrkT [Add α] [Mul α] (fuel : Nat) (tA tC : IntTy) (A : MatV α) (C : Mat)
    (t : Triangle) : Prog α Unit :=
  let sz := common tA tC
  triangleLoop2T fuel sz tC C.rows C.cols t (fun _ => pure ()) fun i j =>
    upTo sz tA fuel 0 A.cols fun k => do
      let a ← A.at_ tA i k
      let b ← A.at_ tA j k
      C.addAt tC i j (a * b)

/-- `blas3_matrix_rank_k_update.hpp:342-365`: `size_type` 349. -/
def herkAlphaT [Add α] [Mul α] [ConjOps α] (fuel : Nat) (tA tC : IntTy) (alpha : α)
    (A : MatV α) (C : Mat) (t : Triangle) : Prog α Unit :=
  let sz := common tA tC
  triangleLoop2T fuel sz tC C.rows C.cols t (makeDiagRealT C tC) fun i j =>
    upTo sz tA fuel 0 A.cols fun k => do
      let a ← A.at_ tA i k
      let b ← A.at_ tA j k
      C.addAt tC i j (alpha * a * ConjOps.conj b)

/-- `blas3_matrix_rank_k_update.hpp:446-468`: `size_type` 452. -/
def herkT [Add α] [Mul α] [ConjOps α] (fuel : Nat) (tA tC : IntTy) (A : MatV α) (C : Mat)
    (t : Triangle) : Prog α Unit :=
  let sz := common tA tC
  triangleLoop2T fuel sz tC C.rows C.cols t (makeDiagRealT C tC) fun i j =>
    upTo sz tA fuel 0 A.cols fun k => do
      let a ← A.at_ tA i k
      let b ← A.at_ tA j k
      C.addAt tC i j (a * ConjOps.conj b)

/-- `blas3_matrix_rank_2k_update.hpp:108-128`: `size_type` 117. -/
def syr2kT [Add α] [Mul α] (fuel : Nat) (tA tB tC : IntTy) (A B : MatV α) (C : Mat)
    (t : Triangle) : Prog α Unit :=
  let sz := common3 tA tB tC
  triangleLoop2T fuel sz tC C.rows C.cols t (fun _ => pure ()) fun i j =>
    upTo sz tA fuel 0 A.cols fun k => do
      let aik ← A.at_ tA i k
      let bjk ← B.at_ tB j k
      let bik ← B.at_ tB i k
      let ajk ← A.at_ tA j k
      C.addAt tC i j (aik * bjk + bik * ajk)

/-- `blas3_matrix_rank_2k_update.hpp:200-221`: `size_type` 209. -/
def her2kT [Add α] [Mul α] [ConjOps α] (fuel : Nat) (tA tB tC : IntTy) (A B : MatV α) (C : Mat)
    (t : Triangle) : Prog α Unit :=
  let sz := common3 tA tB tC
  triangleLoop2T fuel sz tC C.rows C.cols t (makeDiagRealT C tC) fun i j =>
    upTo sz tA fuel 0 A.cols fun k => do
      let aik ← A.at_ tA i k
      let bjk ← B.at_ tB j k
      let bik ← B.at_ tB i k
      let ajk ← A.at_ tA j k
      C.addAt tC i j (aik * ConjOps.conj bjk + bik * ConjOps.conj ajk)

/-! ## BLAS 3: products -/

/-- `blas3_matrix_product.hpp:667-732`: `size_type` 721, loops 723-726. -/
def gemmT [Add α] [Mul α] [Zero α] (fuel : Nat) (tA tB tC : IntTy) (A B : MatV α) (C : Mat) :
    Prog α Unit :=
  let sz := common3 tA tB tC
  upTo sz tC fuel 0 C.rows fun i => upTo sz tC fuel 0 C.cols fun j => do
    C.put tC i j 0
    upTo sz tA fuel 0 A.cols fun k => do
      let a ← A.at_ tA i k
      let b ← B.at_ tB k j
      C.addAt tC i j (a * b)

/-- `blas3_matrix_product.hpp:802-819`: `size_type` 809, loops 811-814. -/
def gemmUpdateT [Add α] [Mul α] (fuel : Nat) (tA tB tE tC : IntTy) (A B E : MatV α) (C : Mat) :
    Prog α Unit :=
  let sz := common4 tA tB tE tC
  upTo sz tC fuel 0 C.rows fun i => upTo sz tC fuel 0 C.cols fun j => do
    let e ← E.at_ tE i j
    C.put tC i j e
    upTo sz tA fuel 0 A.cols fun k => do
      let a ← A.at_ tA i k
      let b ← B.at_ tB k j
      C.addAt tC i j (a * b)

/-- `blas3_matrix_product.hpp:1323-1354`: `size_type` 1330, comparisons `i <= k` 1337, `i >= k` 1348. -/
def symmLeftT [Add α] [Mul α] [Zero α] (fuel : Nat) (tA tB tC : IntTy)
    (A : MatV α) (t : Triangle) (B : MatV α) (C : Mat) : Prog α Unit :=
  let sz := common3 tA tB tC
  match t with
  | .lower =>
    upTo sz tC fuel 0 C.cols fun j => upTo sz tC fuel 0 C.rows fun i => do
      C.put tC i j 0
      upTo sz tA fuel 0 A.cols fun k => do
        let aik ← (if le sz sz i k then A.at_ tA k i else A.at_ tA i k)
        let b ← B.at_ tB k j
        C.addAt tC i j (aik * b)
  | .upper =>
    upTo sz tC fuel 0 C.cols fun j => upTo sz tC fuel 0 C.rows fun i => do
      C.put tC i j 0
      upTo sz tA fuel 0 A.cols fun k => do
        let aik ← (if le sz sz k i then A.at_ tA k i else A.at_ tA i k)
        let b ← B.at_ tB k j
        C.addAt tC i j (aik * b)

/-- `blas3_matrix_product.hpp:1426-1457`: `size_type` 1433, comparisons `j <= k` 1440, `j >= k` 1451. -/
def symmRightT [Add α] [Mul α] [Zero α] (fuel : Nat) (tA tB tC : IntTy)
    (B A : MatV α) (t : Triangle) (C : Mat) : Prog α Unit :=
  let sz := common3 tA tB tC
  match t with
  | .lower =>
    upTo sz tC fuel 0 C.cols fun j => upTo sz tC fuel 0 C.rows fun i => do
      C.put tC i j 0
      upTo sz tA fuel 0 A.cols fun k => do
        let akj ← (if le sz sz j k then A.at_ tA k j else A.at_ tA j k)
        let b ← B.at_ tB i k
        C.addAt tC i j (b * akj)
  | .upper =>
    upTo sz tC fuel 0 C.cols fun j => upTo sz tC fuel 0 C.rows fun i => do
      C.put tC i j 0
      upTo sz tA fuel 0 A.cols fun k => do
        let akj ← (if le sz sz k j then A.at_ tA k j else A.at_ tA j k)
        let b ← B.at_ tB i k
        C.addAt tC i j (b * akj)

/-- `blas3_matrix_product.hpp:1717-1754`: `size_type` 1724, loops `k < i` and from `i+1`
(1730-1736, 1744-1750). -/
def hemmLeftT [Add α] [Mul α] [Zero α] [ConjOps α] (fuel : Nat) (tA tB tC : IntTy) (A : MatV α)
    (t : Triangle) (B : MatV α) (C : Mat) : Prog α Unit :=
  let sz := common3 tA tB tC
  match t with
  | .lower =>
    upTo sz tC fuel 0 C.cols fun j => upTo sz tC fuel 0 C.rows fun i => do
      C.put tC i j 0
      upTo sz sz fuel 0 i fun k => do
        let a ← A.at_ tA i k
        let b ← B.at_ tB k j
        C.addAt tC i j (a * b)
      let aii ← A.at_ tA i i
      let bij ← B.at_ tB i j
      C.addAt tC i j (ConjOps.re aii * bij)
      let lo ← add sz int i 1
      upTo sz tA fuel (sz.cast lo) A.rows fun k => do
        let a ← A.at_ tA k i
        let b ← B.at_ tB k j
        C.addAt tC i j (ConjOps.conj a * b)
  | .upper =>
    upTo sz tC fuel 0 C.cols fun j => upTo sz tC fuel 0 C.rows fun i => do
      C.put tC i j 0
      upTo sz sz fuel 0 i fun k => do
        let a ← A.at_ tA k i
        let b ← B.at_ tB k j
        C.addAt tC i j (ConjOps.conj a * b)
      let aii ← A.at_ tA i i
      let bij ← B.at_ tB i j
      C.addAt tC i j (ConjOps.re aii * bij)
      let lo ← add sz int i 1
      upTo sz tA fuel (sz.cast lo) A.cols fun k => do
        let a ← A.at_ tA i k
        let b ← B.at_ tB k j
        C.addAt tC i j (a * b)

/-- `blas3_matrix_product.hpp:1825-1856`: `size_type` 1832, comparisons `j <= k` 1839, `j >= k` 1850. -/
def hemmRightT [Add α] [Mul α] [Zero α] [ConjOps α] (fuel : Nat) (tA tB tC : IntTy)
    (B A : MatV α) (t : Triangle) (C : Mat) : Prog α Unit :=
  let sz := common3 tA tB tC
  match t with
  | .lower =>
    upTo sz tC fuel 0 C.cols fun j => upTo sz tC fuel 0 C.rows fun i => do
      C.put tC i j 0
      upTo sz tA fuel 0 A.cols fun k => do
        let akj ← (if le sz sz j k then A.at_ tA k j else (do
          let a ← A.at_ tA j k
          pure (ConjOps.conj a)))
        let b ← B.at_ tB i k
        C.addAt tC i j (b * akj)
  | .upper =>
    upTo sz tC fuel 0 C.cols fun j => upTo sz tC fuel 0 C.rows fun i => do
      C.put tC i j 0
      upTo sz tA fuel 0 A.cols fun k => do
        let akj ← (if le sz sz k j then A.at_ tA k j else (do
          let a ← A.at_ tA j k
          pure (ConjOps.conj a)))
        let b ← B.at_ tB i k
        C.addAt tC i j (b * akj)

end StdBLAS

import json, sys
M = []
def m(file, d, old, new, edit, *breaks, count=1, also=None):
    M.append({"def": d, "file": "Verif/" + file + ".lean", "old": old, "new": new, "edit": edit, "breaks": list(breaks), "count": count})
    if also: M[-1]["also"] = also
X, F, S = "Model/Mixed", "Model/FloatReductions", "Model/Steps"
# mixed element types
m(X, "dot", "MixedOps.conv (MixedOps.ty init) (s + a * b)", "s + a * b", "the sum is not converted to the type of init", "C57")
m(X, "dot", "MixedOps.conv (MixedOps.ty init) (s + a * b)", "s + MixedOps.conv (MixedOps.ty init) (a * b)", "the product is converted before the sum", "C57")
m(X, "gemvUpdate", "z.addTo i (a * b)", "z.addTo i (MixedOps.conv z.elt a * b)", "A(i,j) converted to the output type first", "C57")
m(X, "symvAcc", "z.addTo j (aij * xi)", "z.addTo j (aij * xj)", "x(j) used for x(i)", "C57")
m(X, "hemvAcc", "z.addTo j (ConjOps.conj aij * xi)", "z.addTo j (aij * xi)", "conj dropped", "C57")
m(X, "trmvAcc", "z.addTo j b", "z.addTo j (b + b)", "unit diagonal added twice", "C57")
m(X, "trmvInPlace", "y.set j (v * a)", "y.set j (a * v)", "factors swapped", "C57", count=2)
m(X, "gerc", "ger x y.conjugated A", "ger x y A", "conj dropped", "C57")
m(X, "herAlpha", "A.addTo i j (alpha * a * ConjOps.conj b)", "A.addTo i j (alpha * (a * ConjOps.conj b))", "product associated differently", "C57")
m(X, "syr2k", "C.addTo i j (aik * bjk + bik * ajk)", "do\n      C.addTo i j (aik * bjk)\n      C.addTo i j (bik * ajk)", "two updates, each converted", "C57")
m(X, "gemmUpdate", "C.set i j e", "C.setZero i j", "E ignored", "C57")
m(X, "trmmLeft", "C.addTo i j (a * b)", "C.addTo i j (b * a)", "factors swapped", "C57", count=2)
m(X, "trmmRightInPlace", "forUp (j + 1) C.cols", "forUp j C.cols", "lower: diagonal added once more", "C57")
m(X, "symmRight", "if j ≥ k then", "if j ≤ k then", "upper: other triangle", "C57")
m(X, "hemmLeft", "ConjOps.re aii * bij", "aii * bij", "diagonal not made real", "C57", count=2)
m(X, "trsvLower", "(MixedOps.conv (sumTy (D := D) tA tB X.elt) b)", "b", "partial sum starts in the type of B", "C57")
m(X, "trsvUpper", "pure (MixedOps.conv (sumTy (D := D) tA tB X.elt) (s - a * xj))", "pure (MixedOps.conv X.elt (s - a * xj))", "partial sum in the type of X", "C57")
m(X, "trsmLowerLeft", "MixedOps.conv X.elt b", "b", "partial sum starts in the type of B", "C57")
m(X, "trsmUpperRight", "pure (MixedOps.conv (sumTy (D := D) tA tB X.elt) (s - xk * a))", "pure (MixedOps.conv (sumTy (D := D) tA tB X.elt) (s - a * xk))", "factors swapped", "C57")
m(X, "trsmRight", "| .lower => trsmLowerRight tA tB A d B X", "| .lower => trsmLowerRight tB tA A d B X", "types of A and B swapped", "C57")
m(X, "vectorTwoNorm0", "MixedOps.mulTy D tx tx) x (", "MixedOps.mulTy D tx (MixedOps.mulTy D tx tx)) x (", "other accumulator type", "C57")
m(X, "vectorAbsSum", "MixedOps.conv R (s + MixedMag.abs a)", "s + MixedMag.abs a", "not converted to the type of init", "C57")
m(X, "sumTy", "MixedOps.subTy D tB (MixedOps.mulTy D tA tX)", "MixedOps.mulTy D tA tX", "type of B ignored", "C57")
m("Core/MixedTypes", "TVec.addTo".split(".")[-1], "y.set i (o + v)", "y.toVec.set i (o + v)", "sum stored without conversion", "C57")
# floating-point reductions
st = lambda d, old, new: [{"def": d, "file": "Verif/Model/Steps.lean", "old": old, "new": new}]
m(F, "vectorSumOfSquaresOf", "if FloatOps.ne (MagOps.abs v : R) 0 then", "if FloatOps.lt (0 : R) (MagOps.abs v) then", "NaN skipped", "C55",
  also=st("vectorSumOfSquaresOf", "if FloatOps.ne (MagOps.abs v : R) 0 then", "if FloatOps.lt (0 : R) (MagOps.abs v) then"))
m(F, "vectorSumOfSquaresOf", "if FloatOps.lt s.scalingFactor absxi then", "if FloatOps.lt absxi s.scalingFactor then", "scales to the smaller magnitude", "C56", "C47",
  also=st("vectorSumOfSquaresOf", "if FloatOps.lt s.scalingFactor absxi then", "if FloatOps.lt absxi s.scalingFactor then"))
m(F, "vectorTwoNormOf", "r.scalingFactor * FloatOps.sqrt r.scaledSumOfSquares", "FloatOps.sqrt (r.scalingFactor * r.scalingFactor * r.scaledSumOfSquares)", "scale squared before the root", "C56",
  also=st("vectorTwoNormOf", "r.scalingFactor * FloatOps.sqrt r.scaledSumOfSquares", "FloatOps.sqrt (r.scalingFactor * r.scalingFactor * r.scaledSumOfSquares)"))
m(F, "vectorIdxAbsMaxOf", "if FloatOps.lt s.2 (idxMagnitudeOf R b) then pure (i, idxMagnitudeOf R b) else pure s", "if FloatOps.lt (idxMagnitudeOf R b) s.2 then pure s else pure (i, idxMagnitudeOf R b)", "NaN replaces the maximum; last of equal elements", "C55", "C06",
  also=st("vectorIdxAbsMaxOf", "if FloatOps.lt s.2 (idxMagnitudeOf R b) then pure (i, idxMagnitudeOf R b) else pure s", "if FloatOps.lt (idxMagnitudeOf R b) s.2 then pure s else pure (i, idxMagnitudeOf R b)"))
m(F, "vectorAbsSumOf", "s + MagOps.absRe a + MagOps.absIm b", "s + MagOps.absRe a", "imaginary part dropped", "C55", "C47",
  also=st("vectorAbsSumOf", "s + MagOps.absRe a + MagOps.absIm b", "s + MagOps.absRe a"))
m(F, "frobStepOf", "⟨s.scalingFactor, s.scaledSumOfSquares + quotient * quotient⟩", "⟨s.scalingFactor, s.scaledSumOfSquares + (absaij / s.scalingFactor) * (absaij / s.scalingFactor)⟩", "the repaired quotient: the negations must fail", "C56")
m(F, "matrixOneNormOf", "pure (stdMax colSum result)", "pure (stdMax result colSum)", "NaN kept or lost in other columns", "C55",
  also=st("matrixOneNormOf", "pure (stdMax colSum result)", "pure (stdMax result colSum)"))
m(F, "matrixInfNormOf", "else if A.rows = 1 ∧ A.cols = 1 then do", "else if A.rows = 1 then do", "one row treated as one element", "C55", "C47",
  also=st("matrixInfNormOf", "else if A.rows = 1 ∧ A.cols = 1 then do", "else if A.rows = 1 then do"))
# single accesses: the same edit in both models
def both(file, d, old, new, edit, *breaks):
    t = lambda x: x.replace(".get ", ".rd ").replace(".set ", ".wr ").replace(".addTo ", ".plus ").replace("forUp", "Task.forUp")
    m(file, d, old, new, edit, *breaks, also=st(d, t(old), t(new)))
both("Model/Blas1", "copy1", "forUp 0 y.ext", "forUp 0 x.ext", "loop over the input", "C58", "C59", "C09")
both("Model/Blas1", "add1", "z.set i (a + b)", "z.addTo i (a + b)", "old output added", "C59", "C12")
both("Model/Blas2", "gemv", "    y.set i 0\n", "", "output not cleared", "C59", "C16")
both("Model/Blas2", "gemvUpdate", "    z.set i v\n", "    z.addTo i v\n", "old z added", "C59", "C16")
both("Model/Blas2", "trmvAcc", "let iLower := if d = .explicit then j else j + 1", "let iLower := j", "reads the implicit diagonal", "C58", "C19")
both("Model/Blas2", "trsvLower", "    else X.set i s", "    else do\n      let a ← A.get i i\n      X.set i (divide s a)", "divides by the implicit diagonal", "C58", "C59", "C21")
both("Model/Blas2", "trsvUpper", "foldEach (List.range' (i + 1) (A.cols - (i + 1)))", "foldEach (List.range' i (A.cols - i))", "reads x(i) before it is written", "C59", "C21")
both("Model/Blas2", "triangleLoop", "| .lower => forUp j rows", "| .lower => forUp 0 rows", "writes the other triangle", "C58", "C60", "C26", "C28")
both("Model/Blas3", "gemmUpdate", "    C.set i j e\n", "    C.addTo i j e\n", "old C added", "C59", "C31")
both("Model/Blas3", "symmLeft", "let aik ← (if i ≤ k then A.get k i else A.get i k)", "let aik ← A.get i k", "reads the other triangle", "C58", "C59", "C32")
both("Model/Blas3", "hemmLeft", "    forUp 0 C.cols fun j => forUp 0 C.rows fun i => do\n      C.set i j 0\n", "    forUp 0 C.cols fun j => forUp 0 C.rows fun i => do\n", "lower: output not cleared", "C59", "C33")
json.dump(M, open(sys.argv[1], "w"), ensure_ascii=False, indent=0)

[
{
"def": "dot",
"file": "Verif/Model/Mixed.lean",
"old": "MixedOps.conv (MixedOps.ty init) (s + a * b)",
"new": "s + a * b",
"edit": "the sum is not converted to the type of init",
"breaks": [
"C57"
],
"count": 1
},
{
"def": "dot",
"file": "Verif/Model/Mixed.lean",
"old": "MixedOps.conv (MixedOps.ty init) (s + a * b)",
"new": "s + MixedOps.conv (MixedOps.ty init) (a * b)",
"edit": "the product is converted before the sum",
"breaks": [
"C57"
],
"count": 1
},
{
"def": "gemvUpdate",
"file": "Verif/Model/Mixed.lean",
"old": "z.addTo i (a * b)",
"new": "z.addTo i (MixedOps.conv z.elt a * b)",
"edit": "A(i,j) converted to the output type first",
"breaks": [
"C57"
],
"count": 1
},
{
"def": "symvAcc",
"file": "Verif/Model/Mixed.lean",
"old": "z.addTo j (aij * xi)",
"new": "z.addTo j (aij * xj)",
"edit": "x(j) used for x(i)",
"breaks": [
"C57"
],
"count": 1
},
{
"def": "hemvAcc",
"file": "Verif/Model/Mixed.lean",
"old": "z.addTo j (ConjOps.conj aij * xi)",
"new": "z.addTo j (aij * xi)",
"edit": "conj dropped",
"breaks": [
"C57"
],
"count": 1
},
{
"def": "trmvAcc",
"file": "Verif/Model/Mixed.lean",
"old": "z.addTo j b",
"new": "z.addTo j (b + b)",
"edit": "unit diagonal added twice",
"breaks": [
"C57"
],
"count": 1
},
{
"def": "trmvInPlace",
"file": "Verif/Model/Mixed.lean",
"old": "y.set j (v * a)",
"new": "y.set j (a * v)",
"edit": "factors swapped",
"breaks": [
"C57"
],
"count": 2
},
{
"def": "gerc",
"file": "Verif/Model/Mixed.lean",
"old": "ger x y.conjugated A",
"new": "ger x y A",
"edit": "conj dropped",
"breaks": [
"C57"
],
"count": 1
},
{
"def": "herAlpha",
"file": "Verif/Model/Mixed.lean",
"old": "A.addTo i j (alpha * a * ConjOps.conj b)",
"new": "A.addTo i j (alpha * (a * ConjOps.conj b))",
"edit": "product associated differently",
"breaks": [
"C57"
],
"count": 1
},
{
"def": "syr2k",
"file": "Verif/Model/Mixed.lean",
"old": "C.addTo i j (aik * bjk + bik * ajk)",
"new": "do\n      C.addTo i j (aik * bjk)\n      C.addTo i j (bik * ajk)",
"edit": "two updates, each converted",
"breaks": [
"C57"
],
"count": 1
},
{
"def": "gemmUpdate",
"file": "Verif/Model/Mixed.lean",
"old": "C.set i j e",
"new": "C.setZero i j",
"edit": "E ignored",
"breaks": [
"C57"
],
"count": 1
},
{
"def": "trmmLeft",
"file": "Verif/Model/Mixed.lean",
"old": "C.addTo i j (a * b)",
"new": "C.addTo i j (b * a)",
"edit": "factors swapped",
"breaks": [
"C57"
],
"count": 2
},
{
"def": "trmmRightInPlace",
"file": "Verif/Model/Mixed.lean",
"old": "forUp (j + 1) C.cols",
"new": "forUp j C.cols",
"edit": "lower: diagonal added once more",
"breaks": [
"C57"
],
"count": 1
},
{
"def": "symmRight",
"file": "Verif/Model/Mixed.lean",
"old": "if j ≥ k then",
"new": "if j ≤ k then",
"edit": "upper: other triangle",
"breaks": [
"C57"
],
"count": 1
},
{
"def": "hemmLeft",
"file": "Verif/Model/Mixed.lean",
"old": "ConjOps.re aii * bij",
"new": "aii * bij",
"edit": "diagonal not made real",
"breaks": [
"C57"
],
"count": 2
},
{
"def": "trsvLower",
"file": "Verif/Model/Mixed.lean",
"old": "(MixedOps.conv (sumTy (D := D) tA tB X.elt) b)",
"new": "b",
"edit": "partial sum starts in the type of B",
"breaks": [
"C57"
],
"count": 1
},
{
"def": "trsvUpper",
"file": "Verif/Model/Mixed.lean",
"old": "pure (MixedOps.conv (sumTy (D := D) tA tB X.elt) (s - a * xj))",
"new": "pure (MixedOps.conv X.elt (s - a * xj))",
"edit": "partial sum in the type of X",
"breaks": [
"C57"
],
"count": 1
},
{
"def": "trsmLowerLeft",
"file": "Verif/Model/Mixed.lean",
"old": "MixedOps.conv X.elt b",
"new": "b",
"edit": "partial sum starts in the type of B",
"breaks": [
"C57"
],
"count": 1
},
{
"def": "trsmUpperRight",
"file": "Verif/Model/Mixed.lean",
"old": "pure (MixedOps.conv (sumTy (D := D) tA tB X.elt) (s - xk * a))",
"new": "pure (MixedOps.conv (sumTy (D := D) tA tB X.elt) (s - a * xk))",
"edit": "factors swapped",
"breaks": [
"C57"
],
"count": 1
},
{
"def": "trsmRight",
"file": "Verif/Model/Mixed.lean",
"old": "| .lower => trsmLowerRight tA tB A d B X",
"new": "| .lower => trsmLowerRight tB tA A d B X",
"edit": "types of A and B swapped",
"breaks": [
"C57"
],
"count": 1
},
{
"def": "vectorTwoNorm0",
"file": "Verif/Model/Mixed.lean",
"old": "MixedOps.mulTy D tx tx) x (",
"new": "MixedOps.mulTy D tx (MixedOps.mulTy D tx tx)) x (",
"edit": "other accumulator type",
"breaks": [
"C57"
],
"count": 1
},
{
"def": "vectorAbsSum",
"file": "Verif/Model/Mixed.lean",
"old": "MixedOps.conv R (s + MixedMag.abs a)",
"new": "s + MixedMag.abs a",
"edit": "not converted to the type of init",
"breaks": [
"C57"
],
"count": 1
},
{
"def": "sumTy",
"file": "Verif/Model/Mixed.lean",
"old": "MixedOps.subTy D tB (MixedOps.mulTy D tA tX)",
"new": "MixedOps.mulTy D tA tX",
"edit": "type of B ignored",
"breaks": [
"C57"
],
"count": 1
},
{
"def": "addTo",
"file": "Verif/Core/MixedTypes.lean",
"old": "y.set i (o + v)",
"new": "y.toVec.set i (o + v)",
"edit": "sum stored without conversion",
"breaks": [
"C57"
],
"count": 1
},
{
"def": "vectorSumOfSquaresOf",
"file": "Verif/Model/FloatReductions.lean",
"old": "if FloatOps.ne (MagOps.abs v : R) 0 then",
"new": "if FloatOps.lt (0 : R) (MagOps.abs v) then",
"edit": "NaN skipped",
"breaks": [
"C55"
],
"count": 1,
"also": [
{
"def": "vectorSumOfSquaresOf",
"file": "Verif/Model/Steps.lean",
"old": "if FloatOps.ne (MagOps.abs v : R) 0 then",
"new": "if FloatOps.lt (0 : R) (MagOps.abs v) then"
}
]
},
{
"def": "vectorSumOfSquaresOf",
"file": "Verif/Model/FloatReductions.lean",
"old": "if FloatOps.lt s.scalingFactor absxi then",
"new": "if FloatOps.lt absxi s.scalingFactor then",
"edit": "scales to the smaller magnitude",
"breaks": [
"C56",
"C47"
],
"count": 1,
"also": [
{
"def": "vectorSumOfSquaresOf",
"file": "Verif/Model/Steps.lean",
"old": "if FloatOps.lt s.scalingFactor absxi then",
"new": "if FloatOps.lt absxi s.scalingFactor then"
}
]
},
{
"def": "vectorTwoNormOf",
"file": "Verif/Model/FloatReductions.lean",
"old": "r.scalingFactor * FloatOps.sqrt r.scaledSumOfSquares",
"new": "FloatOps.sqrt (r.scalingFactor * r.scalingFactor * r.scaledSumOfSquares)",
"edit": "scale squared before the root",
"breaks": [
"C56"
],
"count": 1,
"also": [
{
"def": "vectorTwoNormOf",
"file": "Verif/Model/Steps.lean",
"old": "r.scalingFactor * FloatOps.sqrt r.scaledSumOfSquares",
"new": "FloatOps.sqrt (r.scalingFactor * r.scalingFactor * r.scaledSumOfSquares)"
}
]
},
{
"def": "vectorIdxAbsMaxOf",
"file": "Verif/Model/FloatReductions.lean",
"old": "if FloatOps.lt s.2 (idxMagnitudeOf R b) then pure (i, idxMagnitudeOf R b) else pure s",
"new": "if FloatOps.lt (idxMagnitudeOf R b) s.2 then pure s else pure (i, idxMagnitudeOf R b)",
"edit": "NaN replaces the maximum; last of equal elements",
"breaks": [
"C55",
"C06"
],
"count": 1,
"also": [
{
"def": "vectorIdxAbsMaxOf",
"file": "Verif/Model/Steps.lean",
"old": "if FloatOps.lt s.2 (idxMagnitudeOf R b) then pure (i, idxMagnitudeOf R b) else pure s",
"new": "if FloatOps.lt (idxMagnitudeOf R b) s.2 then pure s else pure (i, idxMagnitudeOf R b)"
}
]
},
{
"def": "vectorAbsSumOf",
"file": "Verif/Model/FloatReductions.lean",
"old": "s + MagOps.absRe a + MagOps.absIm b",
"new": "s + MagOps.absRe a",
"edit": "imaginary part dropped",
"breaks": [
"C55",
"C47"
],
"count": 1,
"also": [
{
"def": "vectorAbsSumOf",
"file": "Verif/Model/Steps.lean",
"old": "s + MagOps.absRe a + MagOps.absIm b",
"new": "s + MagOps.absRe a"
}
]
},
{
"def": "frobStepOf",
"file": "Verif/Model/FloatReductions.lean",
"old": "⟨s.scalingFactor, s.scaledSumOfSquares + quotient * quotient⟩",
"new": "⟨s.scalingFactor, s.scaledSumOfSquares + (absaij / s.scalingFactor) * (absaij / s.scalingFactor)⟩",
"edit": "the repaired quotient: the negations must fail",
"breaks": [
"C56"
],
"count": 1
},
{
"def": "matrixOneNormOf",
"file": "Verif/Model/FloatReductions.lean",
"old": "pure (stdMax colSum result)",
"new": "pure (stdMax result colSum)",
"edit": "NaN kept or lost in other columns",
"breaks": [
"C55"
],
"count": 1,
"also": [
{
"def": "matrixOneNormOf",
"file": "Verif/Model/Steps.lean",
"old": "pure (stdMax colSum result)",
"new": "pure (stdMax result colSum)"
}
]
},
{
"def": "matrixInfNormOf",
"file": "Verif/Model/FloatReductions.lean",
"old": "else if A.rows = 1 ∧ A.cols = 1 then do",
"new": "else if A.rows = 1 then do",
"edit": "one row treated as one element",
"breaks": [
"C55",
"C47"
],
"count": 1,
"also": [
{
"def": "matrixInfNormOf",
"file": "Verif/Model/Steps.lean",
"old": "else if A.rows = 1 ∧ A.cols = 1 then do",
"new": "else if A.rows = 1 then do"
}
]
},
{
"def": "copy1",
"file": "Verif/Model/Blas1.lean",
"old": "forUp 0 y.ext",
"new": "forUp 0 x.ext",
"edit": "loop over the input",
"breaks": [
"C58",
"C59",
"C09"
],
"count": 1,
"also": [
{
"def": "copy1",
"file": "Verif/Model/Steps.lean",
"old": "Task.forUp 0 y.ext",
"new": "Task.forUp 0 x.ext"
}
]
},
{
"def": "add1",
"file": "Verif/Model/Blas1.lean",
"old": "z.set i (a + b)",
"new": "z.addTo i (a + b)",
"edit": "old output added",
"breaks": [
"C59",
"C12"
],
"count": 1,
"also": [
{
"def": "add1",
"file": "Verif/Model/Steps.lean",
"old": "z.wr i (a + b)",
"new": "z.plus i (a + b)"
}
]
},
{
"def": "gemv",
"file": "Verif/Model/Blas2.lean",
"old": "    y.set i 0\n",
"new": "",
"edit": "output not cleared",
"breaks": [
"C59",
"C16"
],
"count": 1,
"also": [
{
"def": "gemv",
"file": "Verif/Model/Steps.lean",
"old": "    y.wr i 0\n",
"new": ""
}
]
},
{
"def": "gemvUpdate",
"file": "Verif/Model/Blas2.lean",
"old": "    z.set i v\n",
"new": "    z.addTo i v\n",
"edit": "old z added",
"breaks": [
"C59",
"C16"
],
"count": 1,
"also": [
{
"def": "gemvUpdate",
"file": "Verif/Model/Steps.lean",
"old": "    z.wr i v\n",
"new": "    z.plus i v\n"
}
]
},
{
"def": "trmvAcc",
"file": "Verif/Model/Blas2.lean",
"old": "let iLower := if d = .explicit then j else j + 1",
"new": "let iLower := j",
"edit": "reads the implicit diagonal",
"breaks": [
"C58",
"C19"
],
"count": 1,
"also": [
{
"def": "trmvAcc",
"file": "Verif/Model/Steps.lean",
"old": "let iLower := if d = .explicit then j else j + 1",
"new": "let iLower := j"
}
]
},
{
"def": "trsvLower",
"file": "Verif/Model/Blas2.lean",
"old": "    else X.set i s",
"new": "    else do\n      let a ← A.get i i\n      X.set i (divide s a)",
"edit": "divides by the implicit diagonal",
"breaks": [
"C58",
"C59",
"C21"
],
"count": 1,
"also": [
{
"def": "trsvLower",
"file": "Verif/Model/Steps.lean",
"old": "    else X.wr i s",
"new": "    else do\n      let a ← A.rd i i\n      X.wr i (divide s a)"
}
]
},
{
"def": "trsvUpper",
"file": "Verif/Model/Blas2.lean",
"old": "foldEach (List.range' (i + 1) (A.cols - (i + 1)))",
"new": "foldEach (List.range' i (A.cols - i))",
"edit": "reads x(i) before it is written",
"breaks": [
"C59",
"C21"
],
"count": 1,
"also": [
{
"def": "trsvUpper",
"file": "Verif/Model/Steps.lean",
"old": "foldEach (List.range' (i + 1) (A.cols - (i + 1)))",
"new": "foldEach (List.range' i (A.cols - i))"
}
]
},
{
"def": "triangleLoop",
"file": "Verif/Model/Blas2.lean",
"old": "| .lower => forUp j rows",
"new": "| .lower => forUp 0 rows",
"edit": "writes the other triangle",
"breaks": [
"C58",
"C60",
"C26",
"C28"
],
"count": 1,
"also": [
{
"def": "triangleLoop",
"file": "Verif/Model/Steps.lean",
"old": "| .lower => Task.forUp j rows",
"new": "| .lower => Task.forUp 0 rows"
}
]
},
{
"def": "gemmUpdate",
"file": "Verif/Model/Blas3.lean",
"old": "    C.set i j e\n",
"new": "    C.addTo i j e\n",
"edit": "old C added",
"breaks": [
"C59",
"C31"
],
"count": 1,
"also": [
{
"def": "gemmUpdate",
"file": "Verif/Model/Steps.lean",
"old": "    C.wr i j e\n",
"new": "    C.plus i j e\n"
}
]
},
{
"def": "symmLeft",
"file": "Verif/Model/Blas3.lean",
"old": "let aik ← (if i ≤ k then A.get k i else A.get i k)",
"new": "let aik ← A.get i k",
"edit": "reads the other triangle",
"breaks": [
"C58",
"C59",
"C32"
],
"count": 1,
"also": [
{
"def": "symmLeft",
"file": "Verif/Model/Steps.lean",
"old": "let aik ← (if i ≤ k then A.rd k i else A.rd i k)",
"new": "let aik ← A.rd i k"
}
]
},
{
"def": "hemmLeft",
"file": "Verif/Model/Blas3.lean",
"old": "    forUp 0 C.cols fun j => forUp 0 C.rows fun i => do\n      C.set i j 0\n",
"new": "    forUp 0 C.cols fun j => forUp 0 C.rows fun i => do\n",
"edit": "lower: output not cleared",
"breaks": [
"C59",
"C33"
],
"count": 1,
"also": [
{
"def": "hemmLeft",
"file": "Verif/Model/Steps.lean",
"old": "    Task.forUp 0 C.cols fun j => Task.forUp 0 C.rows fun i => do\n      C.wr i j 0\n",
"new": "    Task.forUp 0 C.cols fun j => Task.forUp 0 C.rows fun i => do\n"
}
]
}
]
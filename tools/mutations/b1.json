[
{
"def": "scale1",
"file": "Verif/Model/Blas1.lean",
"old": "v * alpha",
"new": "alpha * v",
"edit": "product in the other order",
"breaks": [
"C11"
],
"count": 1
},
{
"def": "scale2",
"file": "Verif/Model/Blas1.lean",
"old": "forUp 0 A.rows",
"new": "forUp 1 A.rows",
"edit": "row 0 skipped",
"breaks": [
"C11"
],
"count": 1
},
{
"def": "copy1",
"file": "Verif/Model/Blas1.lean",
"old": "forUp 0 y.ext",
"new": "forUp 0 (y.ext - 1)",
"edit": "last element not copied",
"breaks": [
"C09"
],
"count": 1
},
{
"def": "copy2",
"file": "Verif/Model/Blas1.lean",
"old": "let v \u2190 x.get i j",
"new": "let v \u2190 x.get j i",
"edit": "indices swapped when reading",
"breaks": [
"C09"
],
"count": 1
},
{
"def": "swap1",
"file": "Verif/Model/Blas1.lean",
"old": "    y.set i tmp\n",
"new": "    y.set i w\n",
"edit": "temporary not used",
"breaks": [
"C10"
],
"count": 1
},
{
"def": "swap2",
"file": "Verif/Model/Blas1.lean",
"old": "    y.set i j tmp\n",
"new": "",
"edit": "second assignment dropped",
"breaks": [
"C10"
],
"count": 1
},
{
"def": "add1",
"file": "Verif/Model/Blas1.lean",
"old": "a + b",
"new": "b + a",
"edit": "operands exchanged",
"breaks": [
"C12"
],
"count": 1
},
{
"def": "add2",
"file": "Verif/Model/Blas1.lean",
"old": "forUp 0 x.rows",
"new": "forUp 0 x.cols",
"edit": "wrong extent in the inner loop",
"breaks": [
"C12"
],
"count": 1
},
{
"def": "dot",
"file": "Verif/Model/Blas1.lean",
"old": "List.range' 0 v1.ext",
"new": "List.range' 0 v2.ext",
"edit": "loop runs to the extent of v2",
"breaks": [
"C01"
],
"count": 1
},
{
"def": "dotc",
"file": "Verif/Model/Blas1.lean",
"old": "dot v1.conjugated v2 init",
"new": "dot v1 v2.conjugated init",
"edit": "wrong vector conjugated",
"breaks": [
"C02"
],
"count": 1
},
{
"def": "vectorSumOfSquares",
"file": "Verif/Model/Blas1.lean",
"old": "1 + s.scaledSumOfSquares * quotient * quotient",
"new": "1 + s.scaledSumOfSquares * quotient",
"edit": "quotient not squared",
"breaks": [
"C03",
"C04"
],
"count": 1
},
{
"def": "vectorSumOfSquares",
"file": "Verif/Model/Blas1.lean",
"old": "if s.scalingFactor < absxi then",
"new": "if absxi < s.scalingFactor then",
"edit": "comparison reversed",
"breaks": [
"C03"
],
"count": 1
},
{
"def": "vectorTwoNorm",
"file": "Verif/Model/Blas1.lean",
"old": "\u27e80, 1\u27e9",
"new": "\u27e81, 1\u27e9",
"edit": "wrong initial scaling factor",
"breaks": [
"C04"
],
"count": 1
},
{
"def": "vectorTwoNorm",
"file": "Verif/Model/Blas1.lean",
"old": "init + r.scalingFactor",
"new": "r.scalingFactor",
"edit": "init dropped",
"breaks": [
"C04"
],
"count": 1
},
{
"def": "vectorAbsSum",
"file": "Verif/Model/Blas1.lean",
"old": "|AbsOps.reR a| + |AbsOps.imR b|",
"new": "|AbsOps.reR a| + AbsOps.imR b",
"edit": "abs of the imaginary part missing",
"breaks": [
"C05"
],
"count": 1
},
{
"def": "idxMagnitude",
"file": "Verif/Model/Blas1.lean",
"old": "|AbsOps.reR v| + |AbsOps.imR v|",
"new": "AbsOps.abs v",
"edit": "modulus instead of |re|+|im|",
"breaks": [
"C06"
],
"count": 1
},
{
"def": "vectorIdxAbsMax",
"file": "Verif/Model/Blas1.lean",
"old": "if s.2 < idxMagnitude b",
"new": "if s.2 \u2264 idxMagnitude b",
"edit": "last maximum instead of the first",
"breaks": [
"C06"
],
"count": 1
},
{
"def": "vectorIdxAbsMax",
"file": "Verif/Model/Blas1.lean",
"old": "pure (i, idxMagnitude b)",
"new": "pure (i, s.2)",
"edit": "maximum not updated",
"breaks": [
"C06"
],
"count": 1
},
{
"def": "matrixOneNorm",
"file": "Verif/Model/Blas1.lean",
"old": "foldEach (List.range' 0 A.rows) init",
"new": "foldEach (List.range' 0 A.rows) result",
"edit": "column sum starts from the running result",
"breaks": [
"C08"
],
"count": 1
},
{
"def": "matrixInfNorm",
"file": "Verif/Model/Blas1.lean",
"old": "max rowSum result",
"new": "rowSum",
"edit": "maximum dropped",
"breaks": [
"C08"
],
"count": 1
},
{
"def": "matrixInfNorm",
"file": "Verif/Model/Blas1.lean",
"old": "if A.rows = 0 \u2228 A.cols = 0 then pure init",
"new": "if A.rows = 0 \u2228 A.cols = 0 then pure 0",
"edit": "init lost for an empty matrix",
"breaks": [
"C08"
],
"count": 1
},
{
"def": "plainRotation",
"file": "Verif/Model/Givens.lean",
"old": "(f1 / r, g1 / r, r)",
"new": "(g1 / r, f1 / r, r)",
"edit": "cosine and sine exchanged",
"breaks": [
"C13"
],
"count": 1
},
{
"def": "setupGivensReal",
"file": "Verif/Model/Givens.lean",
"old": "scaleBack safmn2 count r",
"new": "scaleBack safmx2 count r",
"edit": "r scaled back in the wrong direction",
"breaks": [
"C13"
],
"count": 1
},
{
"def": "setupGivensReal",
"file": "Verif/Model/Givens.lean",
"old": "(-cs, -sn, -r)",
"new": "(-cs, -sn, r)",
"edit": "sign of r not flipped",
"breaks": [
"C13"
],
"count": 1
},
{
"def": "applyGivens",
"file": "Verif/Model/Givens.lean",
"old": "c * yi - s * xi",
"new": "c * yi + s * xi",
"edit": "sign",
"breaks": [
"C15"
],
"count": 1
},
{
"def": "applyGivens",
"file": "Verif/Model/Givens.lean",
"old": "    let xi \u2190 x.get i\n    y.set i (c * yi - s * xi)\n    x.set i dtemp",
"new": "    x.set i dtemp\n    let xi \u2190 x.get i\n    y.set i (c * yi - s * xi)",
"edit": "x overwritten too early",
"breaks": [
"C15"
],
"count": 1
},
{
"def": "applyGivensC",
"file": "Verif/Model/Givens.lean",
"old": "ConjOps.conj s * xi",
"new": "s * xi",
"edit": "conjugate missing",
"breaks": [
"C15"
],
"count": 1
},
{
"def": "givensComplexTail",
"file": "Verif/Model/Givens.lean",
"old": "let cs := 1 / f2s",
"new": "let cs := f2s",
"edit": "reciprocal missing",
"breaks": [
"C14"
],
"count": 1
},
{
"def": "gemv",
"file": "Verif/Model/Blas2.lean",
"old": "    y.set i 0\n",
"new": "",
"edit": "y not initialised",
"breaks": [
"C16"
],
"count": 1
},
{
"def": "gemvUpdate",
"file": "Verif/Model/Blas2.lean",
"old": "let v \u2190 y.get i",
"new": "let v \u2190 y.get 0",
"edit": "wrong element of y",
"breaks": [
"C16"
],
"count": 1
},
{
"def": "symvAcc",
"file": "Verif/Model/Blas2.lean",
"old": "forUp (j + 1) A.rows",
"new": "forUp j A.rows",
"edit": "diagonal counted twice",
"breaks": [
"C17"
],
"count": 1
},
{
"def": "symvAcc",
"file": "Verif/Model/Blas2.lean",
"old": "  | .upper =>\n    forUp 0 A.cols fun j => do\n      forUp 0 j fun i => do\n        let aij \u2190 A.get i j",
"new": "  | .upper =>\n    forUp 0 A.cols fun j => do\n      forUp 0 j fun i => do\n        let aij \u2190 A.get j i",
"edit": "reads the other triangle",
"breaks": [
"C17"
],
"count": 1
},
{
"def": "hemvAcc",
"file": "Verif/Model/Blas2.lean",
"old": "z.addTo j (ConjOps.re d * b)",
"new": "z.addTo j (d * b)",
"edit": "stored diagonal used as is (lower)",
"breaks": [
"C18"
],
"count": 1
},
{
"def": "hemvAcc",
"file": "Verif/Model/Blas2.lean",
"old": "z.addTo j (ConjOps.conj aij * xi)",
"new": "z.addTo j (aij * xi)",
"edit": "conjugate missing (lower)",
"breaks": [
"C18"
],
"count": 1
},
{
"def": "trmvAcc",
"file": "Verif/Model/Blas2.lean",
"old": "let iLower := if d = .explicit then j else j + 1",
"new": "let iLower := j",
"edit": "implicit diagonal read",
"breaks": [
"C19"
],
"count": 1
},
{
"def": "trmvAcc",
"file": "Verif/Model/Blas2.lean",
"old": "let iUpper := if d = .explicit then j + 1 else j",
"new": "let iUpper := j",
"edit": "explicit diagonal skipped (upper)",
"breaks": [
"C19"
],
"count": 1
},
{
"def": "trmvInPlace",
"file": "Verif/Model/Blas2.lean",
"old": "let j := A.cols - (k + 1)",
"new": "let j := k",
"edit": "ascending loop in place (lower)",
"breaks": [
"C20"
],
"count": 1
},
{
"def": "trmvInPlace",
"file": "Verif/Model/Blas2.lean",
"old": "y.set j (v * a)",
"new": "y.set j (a * a)",
"edit": "wrong factor",
"breaks": [
"C20"
],
"count": 1
},
{
"def": "trsvUpper",
"file": "Verif/Model/Blas2.lean",
"old": "List.range' (i + 1) (A.cols - (i + 1))",
"new": "List.range' (i + 1) (A.cols - (i + 2))",
"edit": "last column skipped",
"breaks": [
"C21",
"C22",
"C24"
],
"count": 1
},
{
"def": "trsvUpper",
"file": "Verif/Model/Blas2.lean",
"old": "forDown A.rows",
"new": "forUp 0 A.rows",
"edit": "forward instead of backward substitution",
"breaks": [
"C21"
],
"count": 1
},
{
"def": "trsvLower",
"file": "Verif/Model/Blas2.lean",
"old": "pure (s - a * xj)",
"new": "pure (a * xj - s)",
"edit": "sign",
"breaks": [
"C21"
],
"count": 1
},
{
"def": "trsvLower",
"file": "Verif/Model/Blas2.lean",
"old": "if d = .explicit then do",
"new": "if d = .implicitUnit then do",
"edit": "diagonal storage flag inverted",
"breaks": [
"C21"
],
"count": 1
},
{
"def": "trsv",
"file": "Verif/Model/Blas2.lean",
"old": "| .lower => trsvLower divide A d b x\n  | .upper => trsvUpper",
"new": "| .lower => trsvUpper divide A d b x\n  | .upper => trsvLower",
"edit": "triangles exchanged",
"breaks": [
"C21"
],
"count": 1
},
{
"def": "ger",
"file": "Verif/Model/Blas2.lean",
"old": "A.addTo i j (a * b)",
"new": "A.set i j (a * b)",
"edit": "overwrites instead of adding",
"breaks": [
"C25"
],
"count": 1
},
{
"def": "gerc",
"file": "Verif/Model/Blas2.lean",
"old": "ger x y.conjugated A",
"new": "ger x.conjugated y A",
"edit": "wrong vector conjugated",
"breaks": [
"C25"
],
"count": 1
},
{
"def": "triangleLoop",
"file": "Verif/Model/Blas2.lean",
"old": "forUp 0 (j + 1)",
"new": "forUp 0 j",
"edit": "diagonal skipped (upper)",
"breaks": [
"C26",
"C27",
"C28",
"C29"
],
"count": 1
},
{
"def": "triangleLoop",
"file": "Verif/Model/Blas2.lean",
"old": "forUp j rows",
"new": "forUp 0 rows",
"edit": "whole column written (lower)",
"breaks": [
"C26",
"C27",
"C28",
"C29"
],
"count": 1
},
{
"def": "makeDiagReal",
"file": "Verif/Model/Blas2.lean",
"old": "A.set j j (ConjOps.re v)",
"new": "A.set j j v",
"edit": "diagonal not made real",
"breaks": [
"C26",
"C27",
"C28",
"C29",
"C30"
],
"count": 1
},
{
"def": "herAlpha",
"file": "Verif/Model/Blas2.lean",
"old": "alpha * a * ConjOps.conj b",
"new": "alpha * ConjOps.conj a * b",
"edit": "wrong factor conjugated",
"breaks": [
"C26"
],
"count": 1
},
{
"def": "syr2",
"file": "Verif/Model/Blas2.lean",
"old": "xi * yj + yi * xj",
"new": "xi * yj + xj * yi",
"edit": "operand order of the second term",
"breaks": [
"C27"
],
"count": 1
},
{
"def": "her2",
"file": "Verif/Model/Blas2.lean",
"old": "xi * ConjOps.conj yj + yi * ConjOps.conj xj",
"new": "xi * ConjOps.conj yj",
"edit": "second term dropped",
"breaks": [
"C27"
],
"count": 1
},
{
"def": "syrk",
"file": "Verif/Model/Blas2.lean",
"old": "let b \u2190 A.get j k",
"new": "let b \u2190 A.get k j",
"edit": "indices swapped",
"breaks": [
"C28"
],
"count": 1
},
{
"def": "herkAlpha",
"file": "Verif/Model/Blas2.lean",
"old": "alpha * a * ConjOps.conj b",
"new": "a * ConjOps.conj b",
"edit": "alpha dropped",
"breaks": [
"C28"
],
"count": 1
},
{
"def": "her2k",
"file": "Verif/Model/Blas2.lean",
"old": "let ajk \u2190 A.get j k",
"new": "let ajk \u2190 B.get j k",
"edit": "wrong matrix",
"breaks": [
"C29"
],
"count": 1
},
{
"def": "gemm",
"file": "Verif/Model/Blas3.lean",
"old": "    C.set i j 0\n",
"new": "",
"edit": "C not initialised",
"breaks": [
"C31"
],
"count": 1
},
{
"def": "gemm",
"file": "Verif/Model/Blas3.lean",
"old": "a * b",
"new": "b * a",
"edit": "factors exchanged",
"breaks": [
"C31"
],
"count": 1
},
{
"def": "gemmUpdate",
"file": "Verif/Model/Blas3.lean",
"old": "forUp 0 A.cols",
"new": "forUp 0 (A.cols - 1)",
"edit": "last term of the inner product missing",
"breaks": [
"C31"
],
"count": 1
},
{
"def": "trmmLeft",
"file": "Verif/Model/Blas3.lean",
"old": "let kEnd := if d = .explicit then i + 1 else i",
"new": "let kEnd := i",
"edit": "diagonal term missing (lower, explicit)",
"breaks": [
"C35"
],
"count": 1
},
{
"def": "trmmRight",
"file": "Verif/Model/Blas3.lean",
"old": "forUp kLower C.cols",
"new": "forUp kLower C.rows",
"edit": "wrong extent",
"breaks": [
"C35"
],
"count": 1
},
{
"def": "trmmLeftInPlace",
"file": "Verif/Model/Blas3.lean",
"old": "forDown C.rows",
"new": "forUp 0 C.rows",
"edit": "ascending loop in place (lower)",
"breaks": [
"C36"
],
"count": 1
},
{
"def": "trmmRightInPlace",
"file": "Verif/Model/Blas3.lean",
"old": "C.set i j (c * a)",
"new": "C.set i j (a * c)",
"edit": "factors exchanged",
"breaks": [
"C36"
],
"count": 1
},
{
"def": "trmmRightInPlace",
"file": "Verif/Model/Blas3.lean",
"old": "forDown C.cols",
"new": "forUp 0 C.cols",
"edit": "ascending loop in place (upper)",
"breaks": [
"C36"
],
"count": 1
},
{
"def": "symmLeft",
"file": "Verif/Model/Blas3.lean",
"old": "(if i \u2264 k then A.get k i else A.get i k)",
"new": "(if i \u2264 k then A.get i k else A.get k i)",
"edit": "reads the other triangle",
"breaks": [
"C32"
],
"count": 1
},
{
"def": "symmRight",
"file": "Verif/Model/Blas3.lean",
"old": "C.addTo i j (b * akj)",
"new": "C.addTo i j (akj * b)",
"edit": "factors exchanged",
"breaks": [
"C32"
],
"count": 1
},
{
"def": "hemmLeft",
"file": "Verif/Model/Blas3.lean",
"old": "C.addTo i j (ConjOps.re aii * bij)",
"new": "C.addTo i j (aii * bij)",
"edit": "diagonal not made real",
"breaks": [
"C33"
],
"count": 1
},
{
"def": "hemmLeft",
"file": "Verif/Model/Blas3.lean",
"old": "C.addTo i j (ConjOps.conj a * b)",
"new": "C.addTo i j (a * b)",
"edit": "conjugate missing",
"breaks": [
"C33"
],
"count": 1
},
{
"def": "trsmUpperLeft",
"file": "Verif/Model/Blas3.lean",
"old": "forUp 0 B.cols",
"new": "forUp 0 A.cols",
"edit": "wrong number of right-hand sides",
"breaks": [
"C37"
],
"count": 1
},
{
"def": "trsmLowerRight",
"file": "Verif/Model/Blas3.lean",
"old": "let a \u2190 A.get k j",
"new": "let a \u2190 A.get j k",
"edit": "reads the other triangle",
"breaks": [
"C37"
],
"count": 1
},
{
"def": "trsm",
"file": "Verif/Model/Blas3.lean",
"old": "| .left => trsmLeft A t d B X\n  | .right => trsmRight",
"new": "| .left => trsmRight A t d B X\n  | .right => trsmLeft",
"edit": "sides exchanged",
"breaks": [
"C37"
],
"count": 1
},
{
"def": "scaled",
"file": "Verif/Model/Views.lean",
"old": "s * x.acc v",
"new": "x.acc v * s",
"edit": "factor on the right (vectors)",
"breaks": [
"C42"
],
"count": 1
},
{
"def": "transposed",
"file": "Verif/Model/Views.lean",
"old": "\u27e8A.cols, A.rows, fun i j => A.addr j i\u27e9",
"new": "\u27e8A.rows, A.cols, fun i j => A.addr j i\u27e9",
"edit": "extents not swapped",
"breaks": [
"C42"
],
"count": 1
},
{
"def": "transpose",
"file": "Verif/Model/Layouts.lean",
"old": "| none, some _ => \u27e8e.static1, e.static0, [e.e0]\u27e9",
"new": "| none, some _ => \u27e8e.static1, e.static0, [e.e1]\u27e9",
"edit": "wrong dynamic extent",
"breaks": [
"C38"
],
"count": 1
},
{
"def": "transposed",
"file": "Verif/Model/Layouts.lean",
"old": ".ok (.stride e.transpose ((Layout.stride e s0 s1).strideOf 1) ((Layout.stride e s0 s1).strideOf 0))",
"new": ".ok (.stride e.transpose ((Layout.stride e s0 s1).strideOf 0) ((Layout.stride e s0 s1).strideOf 1))",
"edit": "strides not exchanged",
"breaks": [
"C38"
],
"count": 1
},
{
"def": "offset",
"file": "Verif/Model/Layouts.lean",
"old": "| leftPadded _ _ s, i, j => i + j * s",
"new": "| leftPadded _ e s, i, j => i + j * e.e0",
"edit": "padding ignored",
"breaks": [
"C43",
"C38"
],
"count": 1
},
{
"def": "conj",
"file": "Verif/Model/Accessors.lean",
"old": "| .conjugated a => a",
"new": "| .conjugated a => .conjugated a",
"edit": "conjugating twice conjugates once",
"breaks": [
"C41"
],
"count": 1
},
{
"def": "offsetPolicy",
"file": "Verif/Model/Accessors.lean",
"old": "| .scaled mul s a => .scaled mul s a.offsetPolicy",
"new": "| .scaled mul s a => .scaled mul s a.offsetPolicy.offsetPolicy",
"edit": "(control) equivalent edit, should survive",
"breaks": [],
"count": 1
},
{
"def": "conj",
"file": "Verif/Model/Accessors.lean",
"old": "if fix && \u03b3.arith then .scaled mul s a",
"new": "if fix && \u03b3.arith then a.conj fix |> fun _ => .conjugated (.scaled mul s a)",
"edit": "arithmetic type wrapped although not needed",
"breaks": [],
"count": 1
},
{
"def": "kUpper",
"file": "Verif/Model/IndexTypes.lean",
"old": "sub sz ptrdiff i 1",
"new": "sub sz int i 1",
"edit": "i - 1 without the conversion to ptrdiff_t",
"breaks": [
"C35"
],
"count": 1
},
{
"def": "trmmLeftInPlaceT",
"file": "Verif/Model/IndexTypes.lean",
"old": "lt int sz 0 k",
"new": "le int sz 0 k",
"edit": "loop condition k >= 0 on an unsigned counter",
"breaks": [
"C51"
],
"count": 1
},
{
"def": "trsvUpperT",
"file": "Verif/Model/IndexTypes.lean",
"old": "cForU (fun i => le int ptrdiff 0 i) (decr ptrdiff) fuel (ptrdiff.cast start)",
"new": "cForU (fun i => le int sz 0 i) (decr sz) fuel (sz.cast start)",
"edit": "size_type counter instead of ptrdiff_t",
"breaks": [
"C51"
],
"count": 1
}
]
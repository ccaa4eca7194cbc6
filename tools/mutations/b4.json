[
 {
  "def": "rescaleOf",
  "file": "Verif/Model/GivensFloat.lean",
  "old": "some (f1, g1, count + 1)",
  "new": "some (f1, g1, count)",
  "edit": "the last scaling step is not counted",
  "breaks": [
   "C61"
  ],
  "count": 1
 },
 {
  "def": "rescaleBackOf",
  "file": "Verif/Model/GivensFloat.lean",
  "old": "rescaleBackOf k n (r * k)",
  "new": "rescaleBackOf k n r",
  "edit": "r is not scaled back",
  "breaks": [
   "C61"
  ],
  "count": 1
 },
 {
  "def": "givensCore",
  "file": "Verif/Model/GivensFloat.lean",
  "old": "some (cs, sn, rescaleBackOf safmx2 count r)",
  "new": "some (cs, sn, rescaleBackOf safmn2 count r)",
  "edit": "scaled back with the wrong factor",
  "breaks": [
   "C61"
  ],
  "count": 1
 },
 {
  "def": "givensCore",
  "file": "Verif/Model/GivensFloat.lean",
  "old": "geOf safmn2 scale then do",
  "new": "false then do",
  "edit": "small numbers are not scaled",
  "breaks": [
   "C61"
  ],
  "count": 1
 },
 {
  "def": "givensCore",
  "file": "Verif/Model/GivensFloat.lean",
  "old": "if geOf scale safmx2 then do",
  "new": "if false then do",
  "edit": "large numbers are not scaled",
  "breaks": [
   "C61"
  ],
  "count": 1
 },
 {
  "def": "setupGivensOf",
  "file": "Verif/Model/GivensFloat.lean",
  "old": "some (-cs, -sn, -r)",
  "new": "some (-cs, -sn, r)",
  "edit": "sign of r not changed",
  "breaks": [
   "C61"
  ],
  "count": 1
 },
 {
  "def": "setupGivensOf",
  "file": "Verif/Model/GivensFloat.lean",
  "old": "FloatOps.lt cs 0 then",
  "new": "FloatOps.lt 0 cs then",
  "edit": "sign test inverted",
  "breaks": [
   "C61"
  ],
  "count": 1
 },
 {
  "def": "setupGivensOf",
  "file": "Verif/Model/GivensFloat.lean",
  "old": "some (0, 1, g)",
  "new": "some (0, 1, f)",
  "edit": "r = f where f = 0",
  "breaks": [
   "C61"
  ],
  "count": 1
 },
 {
  "def": "rotationOf",
  "file": "Verif/Model/GivensFloat.lean",
  "old": "(f1 / r, g1 / r, r)",
  "new": "(f1 / r, f1 / r, r)",
  "edit": "sn computed from f",
  "breaks": [
   "C61"
  ],
  "count": 1
 },
 {
  "def": "rescaleCplxOf",
  "file": "Verif/Model/GivensFloat.lean",
  "old": "let scale1 := scale * k",
  "new": "let scale1 := scale",
  "edit": "scale not updated in the loop",
  "breaks": [
   "C61"
  ],
  "count": 1
 },
 {
  "def": "vectorSumOfSquaresOf",
  "file": "Verif/Model/FloatReductions.lean",
  "old": "pure ⟨absxi, 1 + s.scaledSumOfSquares * quotient * quotient⟩",
  "new": "pure ⟨absxi, 1 + s.scaledSumOfSquares * quotient⟩",
  "edit": "the sum is scaled once instead of twice",
  "breaks": [
   "C62",
   "C56"
  ],
  "count": 1
 },
 {
  "def": "vectorSumOfSquaresOf",
  "file": "Verif/Model/FloatReductions.lean",
  "old": "FloatOps.lt s.scalingFactor absxi then",
  "new": "FloatOps.lt absxi s.scalingFactor then",
  "edit": "scales with the smaller number",
  "breaks": [
   "C62",
   "C56"
  ],
  "count": 1
 },
 {
  "def": "vectorTwoNormOf",
  "file": "Verif/Model/FloatReductions.lean",
  "old": "init + r.scalingFactor * FloatOps.sqrt",
  "new": "init + FloatOps.sqrt",
  "edit": "scaling factor dropped",
  "breaks": [
   "C62",
   "C56"
  ],
  "count": 1
 },
 {
  "def": "vectorAbsSumOf",
  "file": "Verif/Model/FloatReductions.lean",
  "old": "pure (s + MagOps.abs a)",
  "new": "pure (s + MagOps.absRe a + MagOps.absIm a)",
  "edit": "two additions for a real element",
  "breaks": [
   "C47"
  ],
  "count": 1
 },
 {
  "def": "copy2",
  "file": "Verif/Model/StaticExtents.lean",
  "old": "[st.mustMatch x 0 y 0, st.mustMatch x 1 y 1]",
  "new": "[st.mustMatch x 0 y 1, st.mustMatch x 1 y 0]",
  "edit": "extents exchanged",
  "breaks": [
   "C63"
  ],
  "count": 1
 },
 {
  "def": "add1",
  "file": "Verif/Model/StaticExtents.lean",
  "old": ", st.mustMatch x 0 y 0]",
  "new": "]",
  "edit": "x not compared with y",
  "breaks": [
   "C63"
  ],
  "count": 1
 },
 {
  "def": "add2",
  "file": "Verif/Model/StaticExtents.lean",
  "old": "st.mustMatch x 1 z 1, ",
  "new": "",
  "edit": "columns of x and z not compared",
  "breaks": [
   "C63"
  ],
  "count": 1
 },
 {
  "def": "dot",
  "file": "Verif/Model/StaticExtents.lean",
  "old": "[st.mustMatch x 0 y 0]",
  "new": "[st.computeMatch x 0 y 0]",
  "edit": "result of the check discarded",
  "breaks": [
   "C63"
  ],
  "count": 1
 },
 {
  "def": "staticExtentMatch",
  "file": "Verif/Model/StaticExtents.lean",
  "old": "extent1 == none || extent2 == none || extent1 == extent2",
  "new": "extent1 == none || extent1 == extent2",
  "edit": "dynamic second extent refused",
  "breaks": [
   "C63"
  ],
  "count": 1
 },
 {
  "def": "triangleLayoutMatch",
  "file": "Verif/Model/StaticExtents.lean",
  "old": "t' == t",
  "new": "t' != t",
  "edit": "wrong triangle accepted",
  "breaks": [
   "C63"
  ],
  "count": 1
 },
 {
  "def": "checkE",
  "file": "Verif/Model/StaticExtents.lean",
  "old": "st.mustMatch E 1 C 1",
  "new": "st.mustMatch E 1 C 0",
  "edit": "columns of E compared with rows of C",
  "breaks": [
   "C63"
  ],
  "count": 1
 },
 {
  "def": "checkRight",
  "file": "Verif/Model/StaticExtents.lean",
  "old": "st.mustMatch M 1 A 0",
  "new": "st.mustMatch M 0 A 0",
  "edit": "wrong inner extent",
  "breaks": [
   "C63"
  ],
  "count": 1
 },
 {
  "def": "rank2K",
  "file": "Verif/Model/StaticExtents.lean",
  "old": ", st.mustMatch A 1 B 1]",
  "new": "]",
  "edit": "inner extents of A and B not compared",
  "breaks": [
   "C63"
  ],
  "count": 1
 },
 {
  "def": "solveRight",
  "file": "Verif/Model/StaticExtents.lean",
  "old": "st.mustMatch A 1 B 1",
  "new": "st.mustMatch A 1 B 0",
  "edit": "left side check in the right solve",
  "breaks": [
   "C63"
  ],
  "count": 1
 },
 {
  "def": "dotcSigs",
  "file": "Verif/Model/OverloadTable.lean",
  "old": "[.conj 0, .par 1, .par 2]",
  "new": "[.par 0, .conj 1, .par 2]",
  "edit": "the other vector is conjugated",
  "breaks": [
   "C64"
  ],
  "count": 1
 },
 {
  "def": "dotcSigs",
  "file": "Verif/Model/OverloadTable.lean",
  "old": "[⟨none, .dotc, [.par 0, .par 1, .ret]⟩]",
  "new": "[⟨none, .dot, [.par 0, .par 1, .ret]⟩]",
  "edit": "dotc without init calls dot",
  "breaks": [
   "C64"
  ],
  "count": 1
 },
 {
  "def": "matrixRank1UpdateCSigs",
  "file": "Verif/Model/OverloadTable.lean",
  "old": "[.par 0, .par 1, .conj 2, .par 3]",
  "new": "[.par 0, .par 1, .par 2, .par 3]",
  "edit": "with policy: y not conjugated",
  "breaks": [
   "C64"
  ],
  "count": 1
 },
 {
  "def": "symmetricMatrixRankKUpdateSigs",
  "file": "Verif/Model/OverloadTable.lean",
  "old": "[.inl, .par 1, .par 2, .par 3, .par 4]",
  "new": "[.inl, .par 2, .par 3, .par 4]",
  "edit": "with policy: alpha dropped",
  "breaks": [
   "C64"
  ],
  "count": 1
 },
 {
  "def": "symmetricMatrixRankKUpdateSigs",
  "file": "Verif/Model/OverloadTable.lean",
  "old": "[.notPolicy 0, .triangle 1]",
  "new": "[.triangle 1]",
  "edit": "policies accepted as alpha",
  "breaks": [
   "C64"
  ],
  "count": 1
 },
 {
  "def": "hermitianMatrixRank1UpdateSigs",
  "file": "Verif/Model/OverloadTable.lean",
  "old": "[⟨none, .hermitianMatrixRank1Update, [.dflt, .par 0, .par 1, .par 2]⟩]",
  "new": "[⟨none, .symmetricMatrixRank1Update, [.dflt, .par 0, .par 1, .par 2]⟩]",
  "edit": "Hermitian update calls the symmetric one",
  "breaks": [
   "C64"
  ],
  "count": 1
 },
 {
  "def": "matrixProductSigs",
  "file": "Verif/Model/OverloadTable.lean",
  "old": "[.inl, .par 1, .par 2, .par 3, .par 4]",
  "new": "[.inl, .par 1, .par 2, .par 4]",
  "edit": "updating product with policy calls the overwriting one",
  "breaks": [
   "C64"
  ],
  "count": 1
 },
 {
  "def": "matrixProductSigs",
  "file": "Verif/Model/OverloadTable.lean",
  "old": "[.dflt, .par 0, .par 1, .par 2]",
  "new": "[.dflt, .par 1, .par 0, .par 2]",
  "edit": "factors exchanged",
  "breaks": [
   "C64"
  ],
  "count": 1
 },
 {
  "def": "matrixProductSigs",
  "file": "Verif/Model/OverloadTable.lean",
  "old": "    [.inlineRef, .span (.rank 2), .span (.rank 2), .span (.rank 2)],\n    [],",
  "new": "    [.inlineRef, .span (.rank 2), .span (.rank 2), .span (.rank 2)],\n    [.unique 1],",
  "edit": "the loops require a unique layout, the policy overload does not",
  "breaks": [
   "C64"
  ],
  "count": 1
 },
 {
  "def": "triangularMatrixVectorSolveSigs",
  "file": "Verif/Model/OverloadTable.lean",
  "old": "[.inl, .par 1, .par 2, .par 3, .par 4, .par 5, .par 6]",
  "new": "[.inl, .par 1, .par 2, .par 3, .par 4, .par 5]",
  "edit": "with policy: the division object is dropped",
  "breaks": [
   "C64"
  ],
  "count": 1
 },
 {
  "def": "triangularMatrixVectorSolveSigs",
  "file": "Verif/Model/OverloadTable.lean",
  "old": "[.move 0, .par 1",
  "new": "[.par 0, .par 1",
  "edit": "inline policy passed as an lvalue",
  "breaks": [
   "C64"
  ],
  "count": 1
 },
 {
  "def": "swapElementsSigs",
  "file": "Verif/Model/OverloadTable.lean",
  "old": "[.inl, .par 1, .par 2]",
  "new": "[.par 0, .par 1, .par 2]",
  "edit": "the policy overload calls itself",
  "breaks": [
   "C64"
  ],
  "count": 1
 },
 {
  "def": "triangularMatrixMatrixSolveSigs",
  "file": "Verif/Model/OverloadTable.lean",
  "old": "(some (4, true)), .triangularMatrixMatrixLeftSolve",
  "new": "(some (4, true)), .triangularMatrixMatrixRightSolve",
  "edit": "left side solved as right side",
  "breaks": [
   "C64"
  ],
  "count": 1
 },
 {
  "def": "symmetricMatrixProductSigs",
  "file": "Verif/Model/OverloadTable.lean",
  "old": "[.B, .A, .t, .E, .C],\n    [.span (.rank 2), .span (.rank 2), .val 0, .span (.rank 2), .span (.rank 2)]",
  "new": "[.B, .A, .t, .E, .C],\n    [.val 1, .span (.rank 2), .val 0, .span (.rank 2), .span (.rank 2)]",
  "edit": "first parameter not restricted to mdspans: ambiguous",
  "breaks": [
   "C64"
  ],
  "count": 1
 },
 {
  "def": "matrixVectorProductSigs",
  "file": "Verif/Model/OverloadTable.lean",
  "old": "[.notSpan 0, .unique 1]",
  "new": "[.unique 1]",
  "edit": "mdspan accepted as policy: resolved by partial ordering only",
  "breaks": [
   "C64"
  ],
  "count": 1
 }
]
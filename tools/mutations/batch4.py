"""Writes b4.json: edits of the floating-point, static-extent and overload models."""
import json, os
M = []
def m(d, file, old, new, edit, *breaks, **kw):
    M.append(dict({"def": d, "file": "Verif/Model/" + file, "old": old, "new": new, "edit": edit, "breaks": list(breaks), "count": 1}, **kw))
G = "GivensFloat.lean"
m("rescaleOf", G, "some (f1, g1, count + 1)", "some (f1, g1, count)", "the last scaling step is not counted", "C61")
m("rescaleBackOf", G, "rescaleBackOf k n (r * k)", "rescaleBackOf k n r", "r is not scaled back", "C61")
m("givensCore", G, "some (cs, sn, rescaleBackOf safmx2 count r)", "some (cs, sn, rescaleBackOf safmn2 count r)", "scaled back with the wrong factor", "C61")
m("givensCore", G, "geOf safmn2 scale then do", "false then do", "small numbers are not scaled", "C61")
m("givensCore", G, "if geOf scale safmx2 then do", "if false then do", "large numbers are not scaled", "C61")
m("setupGivensOf", G, "some (-cs, -sn, -r)", "some (-cs, -sn, r)", "sign of r not changed", "C61")
m("setupGivensOf", G, "FloatOps.lt cs 0 then", "FloatOps.lt 0 cs then", "sign test inverted", "C61")
m("setupGivensOf", G, "some (0, 1, g)", "some (0, 1, f)", "r = f where f = 0", "C61")
m("rotationOf", G, "(f1 / r, g1 / r, r)", "(f1 / r, f1 / r, r)", "sn computed from f", "C61")
m("rescaleCplxOf", G, "let scale1 := scale * k", "let scale1 := scale", "scale not updated in the loop", "C61")
F = "FloatReductions.lean"
m("vectorSumOfSquaresOf", F, "pure ⟨absxi, 1 + s.scaledSumOfSquares * quotient * quotient⟩", "pure ⟨absxi, 1 + s.scaledSumOfSquares * quotient⟩", "the sum is scaled once instead of twice", "C62", "C56")
m("vectorSumOfSquaresOf", F, "FloatOps.lt s.scalingFactor absxi then", "FloatOps.lt absxi s.scalingFactor then", "scales with the smaller number", "C62", "C56")
m("vectorTwoNormOf", F, "init + r.scalingFactor * FloatOps.sqrt", "init + FloatOps.sqrt", "scaling factor dropped", "C62", "C56")
m("vectorAbsSumOf", F, "pure (s + MagOps.abs a)", "pure (s + MagOps.absRe a + MagOps.absIm a)", "two additions for a real element", "C47")
S = "StaticExtents.lean"
m("copy2", S, "[st.mustMatch x 0 y 0, st.mustMatch x 1 y 1]", "[st.mustMatch x 0 y 1, st.mustMatch x 1 y 0]", "extents exchanged", "C63")
m("add1", S, ", st.mustMatch x 0 y 0]", "]", "x not compared with y", "C63")
m("add2", S, "st.mustMatch x 1 z 1, ", "", "columns of x and z not compared", "C63")
m("Native.dot".split(".")[1], S, "[st.mustMatch x 0 y 0]", "[st.computeMatch x 0 y 0]", "result of the check discarded", "C63")
m("staticExtentMatch", S, "extent1 == none || extent2 == none || extent1 == extent2", "extent1 == none || extent1 == extent2", "dynamic second extent refused", "C63")
m("triangleLayoutMatch", S, "t' == t", "t' != t", "wrong triangle accepted", "C63")
m("checkE", S, "st.mustMatch E 1 C 1", "st.mustMatch E 1 C 0", "columns of E compared with rows of C", "C63")
m("checkRight", S, "st.mustMatch M 1 A 0", "st.mustMatch M 0 A 0", "wrong inner extent", "C63")
m("rank2K", S, ", st.mustMatch A 1 B 1]", "]", "inner extents of A and B not compared", "C63")
m("solveRight", S, "st.mustMatch A 1 B 1", "st.mustMatch A 1 B 0", "left side check in the right solve", "C63")
T = "OverloadTable.lean"
m("dotcSigs", T, "[.conj 0, .par 1, .par 2]", "[.par 0, .conj 1, .par 2]", "the other vector is conjugated", "C64")
m("dotcSigs", T, "[⟨none, .dotc, [.par 0, .par 1, .ret]⟩]", "[⟨none, .dot, [.par 0, .par 1, .ret]⟩]", "dotc without init calls dot", "C64")
m("matrixRank1UpdateCSigs", T, "[.par 0, .par 1, .conj 2, .par 3]", "[.par 0, .par 1, .par 2, .par 3]", "with policy: y not conjugated", "C64")
m("symmetricMatrixRankKUpdateSigs", T, "[.inl, .par 1, .par 2, .par 3, .par 4]", "[.inl, .par 2, .par 3, .par 4]", "with policy: alpha dropped", "C64")
m("symmetricMatrixRankKUpdateSigs", T, "[.notPolicy 0, .triangle 1]", "[.triangle 1]", "policies accepted as alpha", "C64")
m("hermitianMatrixRank1UpdateSigs", T, "[⟨none, .hermitianMatrixRank1Update, [.dflt, .par 0, .par 1, .par 2]⟩]", "[⟨none, .symmetricMatrixRank1Update, [.dflt, .par 0, .par 1, .par 2]⟩]", "Hermitian update calls the symmetric one", "C64")
m("matrixProductSigs", T, "[.inl, .par 1, .par 2, .par 3, .par 4]", "[.inl, .par 1, .par 2, .par 4]", "updating product with policy calls the overwriting one", "C64")
m("matrixProductSigs", T, "[.dflt, .par 0, .par 1, .par 2]", "[.dflt, .par 1, .par 0, .par 2]", "factors exchanged", "C64")
m("matrixProductSigs", T, "    [.inlineRef, .span (.rank 2), .span (.rank 2), .span (.rank 2)],\n    [],", "    [.inlineRef, .span (.rank 2), .span (.rank 2), .span (.rank 2)],\n    [.unique 1],", "the loops require a unique layout, the policy overload does not", "C64")
m("triangularMatrixVectorSolveSigs", T, "[.inl, .par 1, .par 2, .par 3, .par 4, .par 5, .par 6]", "[.inl, .par 1, .par 2, .par 3, .par 4, .par 5]", "with policy: the division object is dropped", "C64")
m("triangularMatrixVectorSolveSigs", T, "[.move 0, .par 1", "[.par 0, .par 1", "inline policy passed as an lvalue", "C64")
m("swapElementsSigs", T, "[.inl, .par 1, .par 2]", "[.par 0, .par 1, .par 2]", "the policy overload calls itself", "C64")
m("triangularMatrixMatrixSolveSigs", T, "(some (4, true)), .triangularMatrixMatrixLeftSolve", "(some (4, true)), .triangularMatrixMatrixRightSolve", "left side solved as right side", "C64")
m("symmetricMatrixProductSigs", T, "[.B, .A, .t, .E, .C],\n    [.span (.rank 2), .span (.rank 2), .val 0, .span (.rank 2), .span (.rank 2)]", "[.B, .A, .t, .E, .C],\n    [.val 1, .span (.rank 2), .val 0, .span (.rank 2), .span (.rank 2)]", "first parameter not restricted to mdspans: ambiguous", "C64")
m("matrixVectorProductSigs", T, "[.notSpan 0, .unique 1]", "[.unique 1]", "mdspan accepted as policy: resolved by partial ordering only", "C64")
B = "Blas2.lean"
here = os.path.dirname(os.path.abspath(__file__))
json.dump(M, open(os.path.join(here, "b4.json"), "w"), indent=1, ensure_ascii=False)
print(len(M))

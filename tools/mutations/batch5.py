#!/usr/bin/env python3
"""Fifth batch: definitions that the earlier batches did not edit."""
import json, os
M = []
def m(f, d, old, new, edit, *breaks, count=1, also=()):
    M.append(dict(zip(("def", "file", "old", "new", "edit", "breaks", "count"),
      (d, f"Verif/Model/{f}.lean", old, new, edit, list(breaks), count))))
    if also: M[-1]["also"] = list(also)
K = "Kokkos"
m(K, "kkCopy2", "Task.forUp 0 x.view.cols", "Task.forUp 1 x.view.cols", "the first column is not copied", "C50")
m(K, "kkSwap2", "x.view.wr i j b\n    y.view.wr i j tmp", "x.view.wr i j b\n    y.view.wr i j b", "the saved element is not written back", "C50")
m(K, "kkSumOfSquares", "pure (update + tmp * tmp)", "pure (update + tmp)", "the quotients are not squared", "C49")
m(K, "kkCheckSquare", "require (A.cols = x.ext)", "require (A.cols = y.ext)", "x is not checked", "C52")
m(K, "kkSymv", "kkSymRow id A.view t x.view i", "kkSymRow id A.view .lower x.view i", "the triangle is ignored", "C50")
m(K, "kkSymvUpdate", "z.view.wr i (yi + lsum)", "z.view.wr i lsum", "y is not added", "C50")
m(K, "kkTrmvUpdate", "let yi ← y.view.rd i", "let yi ← z.view.rd i", "z is added instead of y", "C50")
m(K, "kkGer", "let b ← y.view.rd j", "let b ← y.view.rd i", "y(i) instead of y(j)", "C50")
m(K, "kkSyr", "require (A.rows = x.ext)", "require (A.rows = A.cols)", "x is not checked", "C52")
m(K, "kkCheckLeft", "require (B.cols = C.cols)", "require (B.rows = C.rows)", "the columns of C are not checked", "C52")
m(K, "kkCheckRight", "require (B.rows = C.rows)", "require (B.cols = C.cols)", "the rows of C are not checked", "C52")
m(K, "kkCheckE", "require (E.cols = C.cols)", "require (E.rows = C.rows)", "the columns of E are not checked", "C52")
m(K, "kkSymmRightUpdate", "fun i j => E.view.rd i j", "fun i j => C.view.rd i j", "C is taken instead of E", "C50")
m(K, "kkHemmLeft", "kkLeftTerm ConjOps.conj t A B", "kkLeftTerm id t A B", "the other triangle is not conjugated", "C50")
m(K, "kkHemmRight", "kkRightTerm ConjOps.conj t A B", "kkLeftTerm ConjOps.conj t A B", "the product is formed from the left", "C50")
m(K, "kkTrmmLeft", "kkTrmmLeftViews t .implicitUnit", "kkTrmmLeftViews t .explicit", "the stored diagonal is used", "C50")
m(K, "kkTrmmRightInPlace", "kkTrmmRightViews t", "kkTrmmRightViews .upper", "the triangle is ignored", "C50")
F = "KokkosFloat"
m(F, "kkAbsSumOf", "pure (result + init)", "pure result", "init is dropped", "C66")
m(F, "kkNorm2Of", "FloatOps.sqrt (result + init)", "FloatOps.sqrt result", "init is dropped", "C66")
m(F, "kkSumOfSquaresOf", "pure (update + tmp * tmp)", "pure (update + tmp)", "the quotients are not squared", "C66")
m(F, "kkSumOfSquaresOf", "(init.scalingFactor * init.scalingFactor * init.scaledSumOfSquares)", "(init.scalingFactor * init.scaledSumOfSquares)", "the old scaling factor is not squared", "C66")
m(F, "kkFrobNormOf", "pure (update + tmp * tmp)", "pure (update + tmp)", "the quotients are not squared", "C66")
m(F, "kkInfNormOf", "Rd.foldUp 1 A.view.cols", "Rd.foldUp 2 A.view.cols", "the second column is skipped", "C65", "C66")
m(F, "kkOneNormOf", "let a ← A.view.look 0 j", "let a ← A.view.look j 0", "first element of row j instead of column j", "C65", "C66")
G = "KokkosKernels"
m(G, "kkCheckGemm", "require (A.rows = C.rows)", "require (A.rows = A.rows)", "the rows of C are not checked", "C52")
m(G, "kkGemm", "K.gemm .N .N 1 A.view B.view 0 C.view", "K.gemm .N .N 1 A.view B.view 1 C.view", "beta = 1: the old C is added", "C53")
m(G, "kkGemmFallback", "Sched.lift (gemm A B C)", "Sched.lift (gemm B A C)", "the factors are exchanged", "C53")
m(G, "kkTrmmRightExplicit", "trmmKK K .right t", "trmmKK K .left t", "wrong side", "C53")
m(G, "kkCopySame2", "K.deepCopy2 y.view x.view", "K.deepCopy2 x.view y.view", "copied the wrong way", "C53")
m(G, "kkTrsmLeft", "K.deepCopy2 X.view B.view", "K.deepCopy2 B.view X.view", "B is overwritten by X", "C53")
S = "StaticExtents"
m(S, "syr", "st.mustMatch A 0 x 0", "st.mustMatch A 0 A 0", "x is not checked", "C63")
m(S, "checkRight", "st.mustMatch M 0 C 0", "st.mustMatch M 0 C 1", "rows of M compared with the columns of C", "C63")
m(S, "rankK", "st.mustMatch A 0 C 0", "st.mustMatch A 1 C 0", "columns of A compared with C", "C63")
m(S, "solveLeft", "st.mustMatch X 1 B 1", "st.mustMatch X 1 B 0", "columns of X compared with the rows of B", "C63")
m(S, "add", "(List.range' 0 rank)", "(List.range' 1 rank)", "the loop over the ranks starts at 1", "C63")
V = "Givens"
m(V, "rescaleLoop", "some (f1, g1, count + 1)", "some (f1, g1, count)", "the last step is not counted", "C13")
m(V, "scaleBack", "scaleBack k n (r * k)", "scaleBack k n r", "r is not scaled back", "C13")
m(V, "setupGivensComplex", "if g = 0 then some (1, 0, f)", "if f = 0 then some (1, 0, f)", "the test of g tests f", "C14")
m(V, "abs1", "max |z.re| |z.im|", "|z.re|", "the imaginary part is ignored", "C14")
W = "GivensFloat"
m(W, "givensTailOf", "let sn := cmulOf (r.1 / d, r.2 / d) (gs.1, -gs.2)", "let sn := cmulOf (r.1 / d, r.2 / d) (gs.1, gs.2)", "gs is not conjugated", "C61")
m(W, "setupGivensCplxOf", "some (givensTailOf hyp safmin safmn2 safmx2 f g fs gs count 0)", "some (givensTailOf hyp safmin safmn2 safmx2 f g fs gs 0 count)", "r is scaled back the wrong way", "C61")
L = "Layouts"
m(L, "leastMultiple", "(y + (x - 1)) / x * x", "y / x * x", "rounded down", "C38")
m(L, "stridedSpan", "1 + (e.e0 - 1) * s0 + (e.e1 - 1) * s1", "(e.e0 - 1) * s0 + (e.e1 - 1) * s1", "span one too small", "C41")
m(L, "strideOf", "| transpose n, r => n.strideOf (if r = 0 then 1 else 0)", "| transpose n, r => n.strideOf r", "strides of the transposed mapping not exchanged", "C38")
I = "IndexTypes"
m(I, "trsmLowerLeftT", "cFor (fun j => lt sz sz j i)", "cFor (fun j => le sz sz j i)", "loop includes the diagonal", "C51")
m(I, "trsmUpperRightT", "pure (s - xk * a)", "pure (s - a * xk)", "factors exchanged", "C51")
m(I, "trsvT", "| .lower => trsvLowerT fuel", "| .lower => trsvUpperT fuel", "the triangle is ignored", "C51")
P = "Proxy"
m(P, "binary3", "pure (symbol lhs b)", "pure (symbol lhs lhs)", "proxy not used", "C44")
m(P, "scaledScalar", "⟨cell, fun v => mul s v, conv, back⟩", "⟨cell + 1, fun v => mul s v, conv, back⟩", "refers to the next cell", "C44")
json.dump(M, open(os.path.join(os.path.dirname(os.path.abspath(__file__)), "b5.json"), "w"), indent=1)
print(len(M))

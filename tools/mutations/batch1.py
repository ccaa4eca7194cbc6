import json, sys
M = []
def m(file, d, old, new, edit, *breaks, count=1):
    M.append({"def": d, "file": "Verif/" + file + ".lean", "old": old, "new": new, "edit": edit, "breaks": list(breaks), "count": count})
B1, B2, B3, G, V, L, A, I, P = ("Model/Blas1", "Model/Blas2", "Model/Blas3", "Model/Givens", "Model/Views", "Model/Layouts", "Model/Accessors", "Model/IndexTypes", "Model/Proxy")
# BLAS 1
m(B1, "scale1", "v * alpha", "alpha * v", "product in the other order", "C11")
m(B1, "scale2", "forUp 0 A.rows", "forUp 1 A.rows", "row 0 skipped", "C11")
m(B1, "copy1", "forUp 0 y.ext", "forUp 0 (y.ext - 1)", "last element not copied", "C09")
m(B1, "copy2", "let v ← x.get i j", "let v ← x.get j i", "indices swapped when reading", "C09")
m(B1, "swap1", "    y.set i tmp\n", "    y.set i w\n", "temporary not used", "C10")
m(B1, "swap2", "    y.set i j tmp\n", "", "second assignment dropped", "C10")
m(B1, "add1", "a + b", "b + a", "operands exchanged", "C12")
m(B1, "add2", "forUp 0 x.rows", "forUp 0 x.cols", "wrong extent in the inner loop", "C12")
m(B1, "dot", "List.range' 0 v1.ext", "List.range' 0 v2.ext", "loop runs to the extent of v2", "C01")
m(B1, "dotc", "dot v1.conjugated v2 init", "dot v1 v2.conjugated init", "wrong vector conjugated", "C02")
m(B1, "vectorSumOfSquares", "1 + s.scaledSumOfSquares * quotient * quotient", "1 + s.scaledSumOfSquares * quotient", "quotient not squared", "C03", "C04")
m(B1, "vectorSumOfSquares", "if s.scalingFactor < absxi then", "if absxi < s.scalingFactor then", "comparison reversed", "C03")
m(B1, "vectorTwoNorm", "⟨0, 1⟩", "⟨1, 1⟩", "wrong initial scaling factor", "C04")
m(B1, "vectorTwoNorm", "init + r.scalingFactor", "r.scalingFactor", "init dropped", "C04")
m(B1, "vectorAbsSum", "|AbsOps.reR a| + |AbsOps.imR b|", "|AbsOps.reR a| + AbsOps.imR b", "abs of the imaginary part missing", "C05")
m(B1, "idxMagnitude", "|AbsOps.reR v| + |AbsOps.imR v|", "AbsOps.abs v", "modulus instead of |re|+|im|", "C06")
m(B1, "vectorIdxAbsMax", "if s.2 < idxMagnitude b", "if s.2 ≤ idxMagnitude b", "last maximum instead of the first", "C06")
m(B1, "vectorIdxAbsMax", "pure (i, idxMagnitude b)", "pure (i, s.2)", "maximum not updated", "C06")
m(B1, "matrixOneNorm", "foldEach (List.range' 0 A.rows) init", "foldEach (List.range' 0 A.rows) result", "column sum starts from the running result", "C08")
m(B1, "matrixInfNorm", "max rowSum result", "rowSum", "maximum dropped", "C08")
m(B1, "matrixInfNorm", "if A.rows = 0 ∨ A.cols = 0 then pure init", "if A.rows = 0 ∨ A.cols = 0 then pure 0", "init lost for an empty matrix", "C08")
# Givens
m(G, "plainRotation", "(f1 / r, g1 / r, r)", "(g1 / r, f1 / r, r)", "cosine and sine exchanged", "C13")
m(G, "setupGivensReal", "scaleBack safmn2 count r", "scaleBack safmx2 count r", "r scaled back in the wrong direction", "C13")
m(G, "setupGivensReal", "(-cs, -sn, -r)", "(-cs, -sn, r)", "sign of r not flipped", "C13")
m(G, "applyGivens", "c * yi - s * xi", "c * yi + s * xi", "sign", "C15")
m(G, "applyGivens", "    let xi ← x.get i\n    y.set i (c * yi - s * xi)\n    x.set i dtemp", "    x.set i dtemp\n    let xi ← x.get i\n    y.set i (c * yi - s * xi)", "x overwritten too early", "C15")
m(G, "applyGivensC", "ConjOps.conj s * xi", "s * xi", "conjugate missing", "C15")
m(G, "givensComplexTail", "let cs := 1 / f2s", "let cs := f2s", "reciprocal missing", "C14")
# BLAS 2
m(B2, "gemv", "    y.set i 0\n", "", "y not initialised", "C16")
m(B2, "gemvUpdate", "let v ← y.get i", "let v ← y.get 0", "wrong element of y", "C16")
m(B2, "symvAcc", "forUp (j + 1) A.rows", "forUp j A.rows", "diagonal counted twice", "C17")
m(B2, "symvAcc", "  | .upper =>\n    forUp 0 A.cols fun j => do\n      forUp 0 j fun i => do\n        let aij ← A.get i j", "  | .upper =>\n    forUp 0 A.cols fun j => do\n      forUp 0 j fun i => do\n        let aij ← A.get j i", "reads the other triangle", "C17")
m(B2, "hemvAcc", "z.addTo j (ConjOps.re d * b)", "z.addTo j (d * b)", "stored diagonal used as is (lower)", "C18")
m(B2, "hemvAcc", "z.addTo j (ConjOps.conj aij * xi)", "z.addTo j (aij * xi)", "conjugate missing (lower)", "C18")
m(B2, "trmvAcc", "let iLower := if d = .explicit then j else j + 1", "let iLower := j", "implicit diagonal read", "C19")
m(B2, "trmvAcc", "let iUpper := if d = .explicit then j + 1 else j", "let iUpper := j", "explicit diagonal skipped (upper)", "C19")
m(B2, "trmvInPlace", "let j := A.cols - (k + 1)", "let j := k", "ascending loop in place (lower)", "C20")
m(B2, "trmvInPlace", "y.set j (v * a)", "y.set j (a * a)", "wrong factor", "C20")
m(B2, "trsvUpper", "List.range' (i + 1) (A.cols - (i + 1))", "List.range' (i + 1) (A.cols - (i + 2))", "last column skipped", "C21", "C22", "C24")
m(B2, "trsvUpper", "forDown A.rows", "forUp 0 A.rows", "forward instead of backward substitution", "C21")
m(B2, "trsvLower", "pure (s - a * xj)", "pure (a * xj - s)", "sign", "C21")
m(B2, "trsvLower", "if d = .explicit then do", "if d = .implicitUnit then do", "diagonal storage flag inverted", "C21")
m(B2, "trsv", "| .lower => trsvLower divide A d b x\n  | .upper => trsvUpper", "| .lower => trsvUpper divide A d b x\n  | .upper => trsvLower", "triangles exchanged", "C21")
m(B2, "ger", "A.addTo i j (a * b)", "A.set i j (a * b)", "overwrites instead of adding", "C25")
m(B2, "gerc", "ger x y.conjugated A", "ger x.conjugated y A", "wrong vector conjugated", "C25")
m(B2, "triangleLoop", "forUp 0 (j + 1)", "forUp 0 j", "diagonal skipped (upper)", "C26", "C27", "C28", "C29")
m(B2, "triangleLoop", "forUp j rows", "forUp 0 rows", "whole column written (lower)", "C26", "C27", "C28", "C29")
m(B2, "makeDiagReal", "A.set j j (ConjOps.re v)", "A.set j j v", "diagonal not made real", "C26", "C27", "C28", "C29", "C30")
m(B2, "herAlpha", "alpha * a * ConjOps.conj b", "alpha * ConjOps.conj a * b", "wrong factor conjugated", "C26")
m(B2, "syr2", "xi * yj + yi * xj", "xi * yj + xj * yi", "operand order of the second term", "C27")
m(B2, "her2", "xi * ConjOps.conj yj + yi * ConjOps.conj xj", "xi * ConjOps.conj yj", "second term dropped", "C27")
m(B2, "syrk", "let b ← A.get j k", "let b ← A.get k j", "indices swapped", "C28")
m(B2, "herkAlpha", "alpha * a * ConjOps.conj b", "a * ConjOps.conj b", "alpha dropped", "C28")
m(B2, "her2k", "let ajk ← A.get j k", "let ajk ← B.get j k", "wrong matrix", "C29")
# BLAS 3
m(B3, "gemm", "    C.set i j 0\n", "", "C not initialised", "C31")
m(B3, "gemm", "a * b", "b * a", "factors exchanged", "C31")
m(B3, "gemmUpdate", "forUp 0 A.cols", "forUp 0 (A.cols - 1)", "last term of the inner product missing", "C31")
m(B3, "trmmLeft", "let kEnd := if d = .explicit then i + 1 else i", "let kEnd := i", "diagonal term missing (lower, explicit)", "C35")
m(B3, "trmmRight", "forUp kLower C.cols", "forUp kLower C.rows", "wrong extent", "C35")
m(B3, "trmmLeftInPlace", "forDown C.rows", "forUp 0 C.rows", "ascending loop in place (lower)", "C36")
m(B3, "trmmRightInPlace", "C.set i j (c * a)", "C.set i j (a * c)", "factors exchanged", "C36")
m(B3, "trmmRightInPlace", "forDown C.cols", "forUp 0 C.cols", "ascending loop in place (upper)", "C36")
m(B3, "symmLeft", "(if i ≤ k then A.get k i else A.get i k)", "(if i ≤ k then A.get i k else A.get k i)", "reads the other triangle", "C32")
m(B3, "symmRight", "C.addTo i j (b * akj)", "C.addTo i j (akj * b)", "factors exchanged", "C32")
m(B3, "hemmLeft", "C.addTo i j (ConjOps.re aii * bij)", "C.addTo i j (aii * bij)", "diagonal not made real", "C33")
m(B3, "hemmLeft", "C.addTo i j (ConjOps.conj a * b)", "C.addTo i j (a * b)", "conjugate missing", "C33")
m(B3, "trsmUpperLeft", "forUp 0 B.cols", "forUp 0 A.cols", "wrong number of right-hand sides", "C37")
m(B3, "trsmLowerRight", "let a ← A.get k j", "let a ← A.get j k", "reads the other triangle", "C37")
m(B3, "trsm", "| .left => trsmLeft A t d B X\n  | .right => trsmRight", "| .left => trsmRight A t d B X\n  | .right => trsmLeft", "sides exchanged", "C37")
# views, layouts, proxies
m(V, "scaled", "s * x.acc v", "x.acc v * s", "factor on the right (vectors)", "C42")
m(V, "transposed", "⟨A.cols, A.rows, fun i j => A.addr j i⟩", "⟨A.rows, A.cols, fun i j => A.addr j i⟩", "extents not swapped", "C42")
m(L, "transpose", "| none, some _ => ⟨e.static1, e.static0, [e.e0]⟩", "| none, some _ => ⟨e.static1, e.static0, [e.e1]⟩", "wrong dynamic extent", "C38")
m(L, "transposed", ".ok (.stride e.transpose ((Layout.stride e s0 s1).strideOf 1) ((Layout.stride e s0 s1).strideOf 0))", ".ok (.stride e.transpose ((Layout.stride e s0 s1).strideOf 0) ((Layout.stride e s0 s1).strideOf 1))", "strides not exchanged", "C38")
m(L, "offset", "| leftPadded _ _ s, i, j => i + j * s", "| leftPadded _ e s, i, j => i + j * e.e0", "padding ignored", "C43", "C38")
m(A, "conj", "| .conjugated a => a", "| .conjugated a => .conjugated a", "conjugating twice conjugates once", "C41")
m(A, "offsetPolicy", "| .scaled mul s a => .scaled mul s a.offsetPolicy", "| .scaled mul s a => .scaled mul s a.offsetPolicy.offsetPolicy", "(control) equivalent edit, should survive")
m(A, "access", "pure (mul s v)", "pure (mul s v)", "(control) no change, should survive")
m(A, "conj", "if fix && γ.arith then .scaled mul s a", "if fix && γ.arith then a.conj fix |> fun _ => .conjugated (.scaled mul s a)", "arithmetic type wrapped although not needed", )
m(P, "binary3", "symbol lhs b", "symbol lhs b", "(control) no change")
m(P, "binary1", "symbol a (rhs.back b)", "symbol a (rhs.back b)", "(control) no change")
m(P, "value", "pure (p.conv (p.toValue v))", "pure (p.conv (p.toValue v))", "(control) no change")
# integer types
m(I, "kUpper", "sub sz ptrdiff i 1", "sub sz int i 1", "i - 1 without the conversion to ptrdiff_t", "C35")
m(I, "trmmLeftInPlaceT", "lt int sz 0 k", "le int sz 0 k", "loop condition k >= 0 on an unsigned counter", "C51")
m(I, "trsvUpperT", "cForU (fun i => le int ptrdiff 0 i) (decr ptrdiff) fuel (ptrdiff.cast start)", "cForU (fun i => le int sz 0 i) (decr sz) fuel (sz.cast start)", "size_type counter instead of ptrdiff_t", "C51")
M = [x for x in M if x["old"] != x["new"]]
json.dump(M, sys.stdout, indent=0)

import json, sys
M = []
def m(file, d, old, new, edit, *breaks, count=1):
    M.append({"def": d, "file": "Verif/" + file + ".lean", "old": old, "new": new, "edit": edit, "breaks": list(breaks), "count": count})
K, KK, D, P, L, A, I = ("Model/Kokkos", "Model/KokkosKernels", "Model/Dispatch", "Model/Proxy", "Model/Layouts", "Model/Accessors", "Model/IndexTypes")
# calls of KokkosKernels
m(KK, "kkAdd1", "K.update1 1 x.view 1 y.view 0 z.view", "K.update1 1 x.view 1 y.view 1 z.view", "old z added", "C53")
m(KK, "kkAdd2", "  require (y.cols = z.cols)\n", "", "check of the columns of z dropped", "C52")
m(KK, "kkDotc", "K.dot x.view y.view", "K.dot y.view x.view", "wrong vector conjugated", "C53")
m(KK, "kkDotc", "pure (r + init)", "pure r", "init dropped", "C53")
m(KK, "kkIdxAbsMax", "(r + sizeMax) % (sizeMax + 1)", "r", "one-based index returned", "C53")
m(KK, "kkCopy1", "K.deepCopy1 y.view x.view", "K.deepCopy1 x.view y.view", "copied in the wrong direction", "C53")
m(KK, "kkGemv", "K.gemv .N 1 A.view x.view 0 y.view", "K.gemv .N 1 A.view x.view 1 y.view", "beta is 1 instead of 0", "C53")
m(KK, "kkGemv", "  require (A.rows = y.ext)\n", "", "check dropped", "C52")
m(KK, "kkGemmTransA", "K.gemm .T .N", "K.gemm .N .T", "flags exchanged", "C53")
m(KK, "kkGemmTransB", "K.gemm .N .T", "K.gemm .N .N", "transposition flag missing", "C53")
m(KK, "trsmKK", "if t = .lower then .L else .U", "if t = .lower then .U else .L", "triangle reversed", "C53")
m(KK, "trsmKK", "if d = .explicit then .N else .U", "if d = .explicit then .U else .N", "diagonal flag reversed", "C53")
m(KK, "trmmKK", "if t = .lower then .U else .L", "if t = .lower then .L else .U", "triangle flag not reversed (what the standard library functions need)", "C53")
m(KK, "kkTrsv", "  K.deepCopy1 x.view b.view\n", "", "right-hand side not copied", "C53")
m(KK, "kkTrsmRight", "trsmKK K .right t d A.view X.view", "trsmKK K .left t d A.view X.view", "wrong side", "C53")
m(KK, "kkTrsmRight", "require (A.cols = B.cols)", "require (A.cols = B.rows)", "wrong extent in the check", "C52", "C53")
m(KK, "asColumn", "x.base + i", "x.base + i * x.stride", "stride respected (the repository ignores it)", "C53")
m(KK, "kkTrmmLeftExplicit", "  K.deepCopy2 C.view B.view\n", "  K.deepCopy2 B.view C.view\n", "copied in the wrong direction", "C53")
# kernels of the Kokkos backend
m(K, "forEachMatrixElement", "parFor A.rows fun i => Task.forUp 0 A.cols fun j => action i j", "parFor A.rows fun i => Task.forUp 0 A.cols fun j => action j i", "indices exchanged for tall matrices", "C48")
m(K, "forEachUpperElement", "Task.forUp 0 (j + 1)", "Task.forUp 0 j", "diagonal skipped", "C48")
m(K, "forEachTriangleElement", "action j i", "action i j", "lower triangle treated as upper", "C48")
m(K, "incr", "C.wr i j (c + v)", "C.wr i j v", "assignment instead of +=", "C48")
m(K, "kkSwap1", "y.view.wr i tmp", "y.view.wr i b", "temporary not used", "C48")
m(K, "kkDot", "pure (result + init)", "pure result", "init dropped", "C49")
m(K, "kkDot", "  require (x.ext = y.ext)\n", "", "extents not checked", "C52")
m(K, "kkAbsSum", "update + AbsOps.abs a", "AbsOps.abs a", "accumulator dropped", "C49")
m(K, "kkNorm2", "Real.sqrt (result + init)", "Real.sqrt result + init", "init added after the root", "C49", "C50")
m(K, "kkFrobNorm", "init + scalingFactor * scalingFactor * ssq", "init + scalingFactor * ssq", "scaling factor not squared", "C49")
m(K, "kkInfNorm", "Rd.foldUp 1 A.view.cols (AbsOps.abs a)", "Rd.foldUp 0 A.view.cols (AbsOps.abs a)", "first column counted twice", "C49")
m(K, "kkOneNorm", "if A.cols = 0 then pure init", "if A.rows = 0 ∨ A.cols = 0 then pure init", "empty rows handled (the repository reads out of bounds)", "C49")
m(K, "kkGemvUpdate", "pure (s + (yi + a * xj))", "pure (s + a * xj)", "y not added", "C50")
m(K, "kkSymRow", "let a ← A.rd j i\n      let xj ← x.rd j\n      pure (s + c a * xj)\n  | .lower", "let a ← A.rd i j\n      let xj ← x.rd j\n      pure (s + c a * xj)\n  | .lower", "reads the other triangle", "C48")
m(K, "kkSymRow", "Task.foldUp (i + 1) A.cols s", "Task.foldUp i A.cols s", "diagonal counted twice (lower)", "C48")
m(K, "kkHemv", "kkSymRow ConjOps.conj", "kkSymRow id", "conjugation missing", "C48", "C50")
m(K, "kkHemvUpdate", "yi + lsum", "lsum", "y not added", "C48", "C50")
m(K, "kkTriRow", "if d = .implicitUnit then i + 1 else i) A.cols", "if d = .implicitUnit then i else i) A.cols", "stored diagonal read with a unit diagonal", "C48")
m(K, "kkTrmv", "  kkCheckSquare A x y\n", "", "checks dropped", "C52")
m(K, "kkGerc", "a * ConjOps.conj b", "ConjOps.conj a * b", "wrong vector conjugated", "C48")
m(K, "kkHer", "a * ConjOps.conj b", "ConjOps.conj a * b", "conjugated matrix", "C48")
m(K, "kkSyr2", "a * b + c * d", "a * b", "second product dropped", "C48")
m(K, "kkHer2", "c * ConjOps.conj d", "c * d", "conjugation missing", "C48")
m(K, "kkSyrk", "Task.forUp 0 A.cols", "Task.forUp 1 A.cols", "first column skipped", "C48")
m(K, "kkHerk", "alpha * a * ConjOps.conj b", "a * ConjOps.conj b", "alpha dropped", "C48")
m(K, "kkSyr2k", "require (A.cols = B.cols)", "require (A.rows = B.rows)", "wrong extents checked", "C52", "C48")
m(K, "kkHer2k", "let d ← A.view.rd j k", "let d ← A.view.rd k j", "indices exchanged", "C48")
m(K, "kkProduct", "    C.view.wr i j c0\n", "", "result not initialised", "C48")
m(K, "kkLeftTerm", "| .upper => i ≥ k", "| .upper => i ≤ k", "reads the wrong triangle", "C48")
m(K, "kkRightTerm", "let b ← B.toMat.rd i k", "let b ← B.view.rd i k", "B through its view (the repository uses the mdspan)", "C50")
m(K, "kkHemmRightUpdate", "  kkCheckRight A B C\n", "  kkCheckRight A B C\n  kkCheckE E C\n", "extents of E checked (the repository does not)", "C52")
m(K, "kkTrmmLeftViews", "if t = .lower then C.rows - 1 - ii else ii", "if t = .lower then ii else C.rows - 1 - ii", "rows visited in the opposite order", "C48")
m(K, "kkTrmmRightViews", "if t = .lower then C.cols else", "if t = .lower then C.cols - 1 else", "last column missed", "C48")
# dispatch
m(D, "overload", "custom := ⟨.beSymRightProd, [A, t, B, C]⟩", "custom := ⟨.beSymRightProd, [B, A, t, C]⟩", "arguments in the order of the declaration", "C45")
m(D, "overload", "| .dot => some (.same .dot [v1, v2, init])", "| .dot => some { (Entry.same .dot [v1, v2, init]) with custom := ⟨.dot, [v2, v1, init]⟩ }", "arguments exchanged in the call of the backend", "C45")
m(D, "overload", "| .copy => some (.same .copy [x, y])", "| .copy => some { (Entry.same .copy [x, y]) with native := ⟨.swapElements, [x, y]⟩ }", "inline call names another function", "C45")
m(D, "call", "if e.checked && m = p then .error .staticAssert\n        else ", "", "check of the mapped policy dropped", "C45")
m(D, "callDefault", "W.call fuel W.dflt f vs", "W.call fuel W.inl f vs", "default policy replaced by the inline policy", "C45")
# views, layouts, accessors, proxies
m(A, "offsetPolicy", "| .scaled mul s a => .scaled mul s a.offsetPolicy\n  | .conjugated a => .conjugated a.offsetPolicy", "| .scaled mul s a => .scaled mul s a.offsetPolicy\n  | .conjugated a => a.offsetPolicy", "conjugation lost in a subview", "C41")
m(A, "conjugateTransposed", "pure (t.conjugated c)", "pure t", "not conjugated", "C41")
m(A, "submdspan", "A.map.offset i0 j0", "A.map.offset j0 i0", "window starts at the transposed index", "C41")
m(L, "strideOf", "n.strideOf (if r = 0 then 1 else 0)", "n.strideOf r", "strides of a transposed layout not exchanged", "C38")
m(L, "mkRightPadded", "leastMultiple pad e.e1", "leastMultiple pad e.e0", "padding computed from the wrong extent", "C38")
m(P, "conjugatedScalar", "fun v => ConjOps.conj v", "fun v => v", "not conjugated", "C44")
m(P, "binary3", "pure (symbol lhs b)", "pure (symbol lhs b)", "(control) no change")
m(P, "neg", "pure (-v)", "pure v", "sign lost", "C44")
m(P, "abs", "if isUnsigned then pure (ofUnsigned v) else pure (absFn v)", "pure (ofUnsigned v)", "signed values returned unchanged", "C44")
# integer types
m(I, "kLower", "add sz int i 1", "pure i", "implicit unit diagonal starts at the diagonal", "C51", "C35")
m(I, "trsmLowerRightT", "let sg := sz.makeSigned", "let sg := sz", "signed counter replaced by size_type", "C51")
m(I, "trmmRightInPlaceT", "cForU (fun k => lt sz (usual sz int) k j1)", "cForU (fun k => lt sz sz k j)", "inner bound j instead of j - 1", "C51")
m(I, "trsvLowerT", "cFor (fun j => lt sz sz j i)", "cFor (fun j => le sz sz j i)", "diagonal subtracted too", "C51")
M = [x for x in M if x["old"] != x["new"]]
json.dump(M, sys.stdout, indent=0)

[
{
"def": "kkAdd1",
"file": "Verif/Model/KokkosKernels.lean",
"old": "K.update1 1 x.view 1 y.view 0 z.view",
"new": "K.update1 1 x.view 1 y.view 1 z.view",
"edit": "old z added",
"breaks": [
"C53"
],
"count": 1
},
{
"def": "kkAdd2",
"file": "Verif/Model/KokkosKernels.lean",
"old": "  require (y.cols = z.cols)\n",
"new": "",
"edit": "check of the columns of z dropped",
"breaks": [
"C52"
],
"count": 1
},
{
"def": "kkDotc",
"file": "Verif/Model/KokkosKernels.lean",
"old": "K.dot x.view y.view",
"new": "K.dot y.view x.view",
"edit": "wrong vector conjugated",
"breaks": [
"C53"
],
"count": 1
},
{
"def": "kkDotc",
"file": "Verif/Model/KokkosKernels.lean",
"old": "pure (r + init)",
"new": "pure r",
"edit": "init dropped",
"breaks": [
"C53"
],
"count": 1
},
{
"def": "kkIdxAbsMax",
"file": "Verif/Model/KokkosKernels.lean",
"old": "(r + sizeMax) % (sizeMax + 1)",
"new": "r",
"edit": "one-based index returned",
"breaks": [
"C53"
],
"count": 1
},
{
"def": "kkCopy1",
"file": "Verif/Model/KokkosKernels.lean",
"old": "K.deepCopy1 y.view x.view",
"new": "K.deepCopy1 x.view y.view",
"edit": "copied in the wrong direction",
"breaks": [
"C53"
],
"count": 1
},
{
"def": "kkGemv",
"file": "Verif/Model/KokkosKernels.lean",
"old": "K.gemv .N 1 A.view x.view 0 y.view",
"new": "K.gemv .N 1 A.view x.view 1 y.view",
"edit": "beta is 1 instead of 0",
"breaks": [
"C53"
],
"count": 1
},
{
"def": "kkGemv",
"file": "Verif/Model/KokkosKernels.lean",
"old": "  require (A.rows = y.ext)\n",
"new": "",
"edit": "check dropped",
"breaks": [
"C52"
],
"count": 1
},
{
"def": "kkGemmTransA",
"file": "Verif/Model/KokkosKernels.lean",
"old": "K.gemm .T .N",
"new": "K.gemm .N .T",
"edit": "flags exchanged",
"breaks": [
"C53"
],
"count": 1
},
{
"def": "kkGemmTransB",
"file": "Verif/Model/KokkosKernels.lean",
"old": "K.gemm .N .T",
"new": "K.gemm .N .N",
"edit": "transposition flag missing",
"breaks": [
"C53"
],
"count": 1
},
{
"def": "trsmKK",
"file": "Verif/Model/KokkosKernels.lean",
"old": "if t = .lower then .L else .U",
"new": "if t = .lower then .U else .L",
"edit": "triangle reversed",
"breaks": [
"C53"
],
"count": 1
},
{
"def": "trsmKK",
"file": "Verif/Model/KokkosKernels.lean",
"old": "if d = .explicit then .N else .U",
"new": "if d = .explicit then .U else .N",
"edit": "diagonal flag reversed",
"breaks": [
"C53"
],
"count": 1
},
{
"def": "trmmKK",
"file": "Verif/Model/KokkosKernels.lean",
"old": "if t = .lower then .U else .L",
"new": "if t = .lower then .L else .U",
"edit": "triangle flag not reversed (what the standard library functions need)",
"breaks": [
"C53"
],
"count": 1
},
{
"def": "kkTrsv",
"file": "Verif/Model/KokkosKernels.lean",
"old": "  K.deepCopy1 x.view b.view\n",
"new": "",
"edit": "right-hand side not copied",
"breaks": [
"C53"
],
"count": 1
},
{
"def": "kkTrsmRight",
"file": "Verif/Model/KokkosKernels.lean",
"old": "trsmKK K .right t d A.view X.view",
"new": "trsmKK K .left t d A.view X.view",
"edit": "wrong side",
"breaks": [
"C53"
],
"count": 1
},
{
"def": "kkTrsmRight",
"file": "Verif/Model/KokkosKernels.lean",
"old": "require (A.cols = B.cols)",
"new": "require (A.cols = B.rows)",
"edit": "wrong extent in the check",
"breaks": [
"C52",
"C53"
],
"count": 1
},
{
"def": "asColumn",
"file": "Verif/Model/KokkosKernels.lean",
"old": "x.base + i",
"new": "x.base + i * x.stride",
"edit": "stride respected (the repository ignores it)",
"breaks": [
"C53"
],
"count": 1
},
{
"def": "kkTrmmLeftExplicit",
"file": "Verif/Model/KokkosKernels.lean",
"old": "  K.deepCopy2 C.view B.view\n",
"new": "  K.deepCopy2 B.view C.view\n",
"edit": "copied in the wrong direction",
"breaks": [
"C53"
],
"count": 1
},
{
"def": "forEachMatrixElement",
"file": "Verif/Model/Kokkos.lean",
"old": "parFor A.rows fun i => Task.forUp 0 A.cols fun j => action i j",
"new": "parFor A.rows fun i => Task.forUp 0 A.cols fun j => action j i",
"edit": "indices exchanged for tall matrices",
"breaks": [
"C48"
],
"count": 1
},
{
"def": "forEachUpperElement",
"file": "Verif/Model/Kokkos.lean",
"old": "Task.forUp 0 (j + 1)",
"new": "Task.forUp 0 j",
"edit": "diagonal skipped",
"breaks": [
"C48"
],
"count": 1
},
{
"def": "forEachTriangleElement",
"file": "Verif/Model/Kokkos.lean",
"old": "action j i",
"new": "action i j",
"edit": "lower triangle treated as upper",
"breaks": [
"C48"
],
"count": 1
},
{
"def": "incr",
"file": "Verif/Model/Kokkos.lean",
"old": "C.wr i j (c + v)",
"new": "C.wr i j v",
"edit": "assignment instead of +=",
"breaks": [
"C48"
],
"count": 1
},
{
"def": "kkSwap1",
"file": "Verif/Model/Kokkos.lean",
"old": "y.view.wr i tmp",
"new": "y.view.wr i b",
"edit": "temporary not used",
"breaks": [
"C48"
],
"count": 1
},
{
"def": "kkDot",
"file": "Verif/Model/Kokkos.lean",
"old": "pure (result + init)",
"new": "pure result",
"edit": "init dropped",
"breaks": [
"C49"
],
"count": 1
},
{
"def": "kkDot",
"file": "Verif/Model/Kokkos.lean",
"old": "  require (x.ext = y.ext)\n",
"new": "",
"edit": "extents not checked",
"breaks": [
"C52"
],
"count": 1
},
{
"def": "kkAbsSum",
"file": "Verif/Model/Kokkos.lean",
"old": "update + AbsOps.abs a",
"new": "AbsOps.abs a",
"edit": "accumulator dropped",
"breaks": [
"C49"
],
"count": 1
},
{
"def": "kkNorm2",
"file": "Verif/Model/Kokkos.lean",
"old": "Real.sqrt (result + init)",
"new": "Real.sqrt result + init",
"edit": "init added after the root",
"breaks": [
"C49",
"C50"
],
"count": 1
},
{
"def": "kkFrobNorm",
"file": "Verif/Model/Kokkos.lean",
"old": "init + scalingFactor * scalingFactor * ssq",
"new": "init + scalingFactor * ssq",
"edit": "scaling factor not squared",
"breaks": [
"C49"
],
"count": 1
},
{
"def": "kkInfNorm",
"file": "Verif/Model/Kokkos.lean",
"old": "Rd.foldUp 1 A.view.cols (AbsOps.abs a)",
"new": "Rd.foldUp 0 A.view.cols (AbsOps.abs a)",
"edit": "first column counted twice",
"breaks": [
"C49"
],
"count": 1
},
{
"def": "kkOneNorm",
"file": "Verif/Model/Kokkos.lean",
"old": "if A.cols = 0 then pure init",
"new": "if A.rows = 0 \u2228 A.cols = 0 then pure init",
"edit": "empty rows handled (the repository reads out of bounds)",
"breaks": [
"C49"
],
"count": 1
},
{
"def": "kkGemvUpdate",
"file": "Verif/Model/Kokkos.lean",
"old": "pure (s + (yi + a * xj))",
"new": "pure (s + a * xj)",
"edit": "y not added",
"breaks": [
"C50"
],
"count": 1
},
{
"def": "kkSymRow",
"file": "Verif/Model/Kokkos.lean",
"old": "let a \u2190 A.rd j i\n      let xj \u2190 x.rd j\n      pure (s + c a * xj)\n  | .lower",
"new": "let a \u2190 A.rd i j\n      let xj \u2190 x.rd j\n      pure (s + c a * xj)\n  | .lower",
"edit": "reads the other triangle",
"breaks": [
"C48"
],
"count": 1
},
{
"def": "kkSymRow",
"file": "Verif/Model/Kokkos.lean",
"old": "Task.foldUp (i + 1) A.cols s",
"new": "Task.foldUp i A.cols s",
"edit": "diagonal counted twice (lower)",
"breaks": [
"C48"
],
"count": 1
},
{
"def": "kkHemv",
"file": "Verif/Model/Kokkos.lean",
"old": "kkSymRow ConjOps.conj",
"new": "kkSymRow id",
"edit": "conjugation missing",
"breaks": [
"C48",
"C50"
],
"count": 1
},
{
"def": "kkHemvUpdate",
"file": "Verif/Model/Kokkos.lean",
"old": "yi + lsum",
"new": "lsum",
"edit": "y not added",
"breaks": [
"C48",
"C50"
],
"count": 1
},
{
"def": "kkTriRow",
"file": "Verif/Model/Kokkos.lean",
"old": "if d = .implicitUnit then i + 1 else i) A.cols",
"new": "if d = .implicitUnit then i else i) A.cols",
"edit": "stored diagonal read with a unit diagonal",
"breaks": [
"C48"
],
"count": 1
},
{
"def": "kkTrmv",
"file": "Verif/Model/Kokkos.lean",
"old": "  kkCheckSquare A x y\n",
"new": "",
"edit": "checks dropped",
"breaks": [
"C52"
],
"count": 1
},
{
"def": "kkGerc",
"file": "Verif/Model/Kokkos.lean",
"old": "a * ConjOps.conj b",
"new": "ConjOps.conj a * b",
"edit": "wrong vector conjugated",
"breaks": [
"C48"
],
"count": 1
},
{
"def": "kkHer",
"file": "Verif/Model/Kokkos.lean",
"old": "a * ConjOps.conj b",
"new": "ConjOps.conj a * b",
"edit": "conjugated matrix",
"breaks": [
"C48"
],
"count": 1
},
{
"def": "kkSyr2",
"file": "Verif/Model/Kokkos.lean",
"old": "a * b + c * d",
"new": "a * b",
"edit": "second product dropped",
"breaks": [
"C48"
],
"count": 1
},
{
"def": "kkHer2",
"file": "Verif/Model/Kokkos.lean",
"old": "c * ConjOps.conj d",
"new": "c * d",
"edit": "conjugation missing",
"breaks": [
"C48"
],
"count": 1
},
{
"def": "kkSyrk",
"file": "Verif/Model/Kokkos.lean",
"old": "Task.forUp 0 A.cols",
"new": "Task.forUp 1 A.cols",
"edit": "first column skipped",
"breaks": [
"C48"
],
"count": 1
},
{
"def": "kkHerk",
"file": "Verif/Model/Kokkos.lean",
"old": "alpha * a * ConjOps.conj b",
"new": "a * ConjOps.conj b",
"edit": "alpha dropped",
"breaks": [
"C48"
],
"count": 1
},
{
"def": "kkSyr2k",
"file": "Verif/Model/Kokkos.lean",
"old": "require (A.cols = B.cols)",
"new": "require (A.rows = B.rows)",
"edit": "wrong extents checked",
"breaks": [
"C52",
"C48"
],
"count": 1
},
{
"def": "kkHer2k",
"file": "Verif/Model/Kokkos.lean",
"old": "let d \u2190 A.view.rd j k",
"new": "let d \u2190 A.view.rd k j",
"edit": "indices exchanged",
"breaks": [
"C48"
],
"count": 1
},
{
"def": "kkProduct",
"file": "Verif/Model/Kokkos.lean",
"old": "    C.view.wr i j c0\n",
"new": "",
"edit": "result not initialised",
"breaks": [
"C48"
],
"count": 1
},
{
"def": "kkLeftTerm",
"file": "Verif/Model/Kokkos.lean",
"old": "| .upper => i \u2265 k",
"new": "| .upper => i \u2264 k",
"edit": "reads the wrong triangle",
"breaks": [
"C48"
],
"count": 1
},
{
"def": "kkRightTerm",
"file": "Verif/Model/Kokkos.lean",
"old": "let b \u2190 B.toMat.rd i k",
"new": "let b \u2190 B.view.rd i k",
"edit": "B through its view (the repository uses the mdspan)",
"breaks": [
"C50"
],
"count": 1
},
{
"def": "kkHemmRightUpdate",
"file": "Verif/Model/Kokkos.lean",
"old": "  kkCheckRight A B C\n",
"new": "  kkCheckRight A B C\n  kkCheckE E C\n",
"edit": "extents of E checked (the repository does not)",
"breaks": [
"C52"
],
"count": 1
},
{
"def": "kkTrmmLeftViews",
"file": "Verif/Model/Kokkos.lean",
"old": "if t = .lower then C.rows - 1 - ii else ii",
"new": "if t = .lower then ii else C.rows - 1 - ii",
"edit": "rows visited in the opposite order",
"breaks": [
"C48"
],
"count": 1
},
{
"def": "kkTrmmRightViews",
"file": "Verif/Model/Kokkos.lean",
"old": "if t = .lower then C.cols else",
"new": "if t = .lower then C.cols - 1 else",
"edit": "last column missed",
"breaks": [
"C48"
],
"count": 1
},
{
"def": "overload",
"file": "Verif/Model/Dispatch.lean",
"old": "custom := \u27e8.beSymRightProd, [A, t, B, C]\u27e9",
"new": "custom := \u27e8.beSymRightProd, [B, A, t, C]\u27e9",
"edit": "arguments in the order of the declaration",
"breaks": [
"C45"
],
"count": 1
},
{
"def": "overload",
"file": "Verif/Model/Dispatch.lean",
"old": "| .dot => some (.same .dot [v1, v2, init])",
"new": "| .dot => some { (Entry.same .dot [v1, v2, init]) with custom := \u27e8.dot, [v2, v1, init]\u27e9 }",
"edit": "arguments exchanged in the call of the backend",
"breaks": [
"C45"
],
"count": 1
},
{
"def": "overload",
"file": "Verif/Model/Dispatch.lean",
"old": "| .copy => some (.same .copy [x, y])",
"new": "| .copy => some { (Entry.same .copy [x, y]) with native := \u27e8.swapElements, [x, y]\u27e9 }",
"edit": "inline call names another function",
"breaks": [
"C45"
],
"count": 1
},
{
"def": "call",
"file": "Verif/Model/Dispatch.lean",
"old": "if e.checked && m = p then .error .staticAssert\n        else ",
"new": "",
"edit": "check of the mapped policy dropped",
"breaks": [
"C45"
],
"count": 1
},
{
"def": "callDefault",
"file": "Verif/Model/Dispatch.lean",
"old": "W.call fuel W.dflt f vs",
"new": "W.call fuel W.inl f vs",
"edit": "default policy replaced by the inline policy",
"breaks": [
"C45"
],
"count": 1
},
{
"def": "offsetPolicy",
"file": "Verif/Model/Accessors.lean",
"old": "| .scaled mul s a => .scaled mul s a.offsetPolicy\n  | .conjugated a => .conjugated a.offsetPolicy",
"new": "| .scaled mul s a => .scaled mul s a.offsetPolicy\n  | .conjugated a => a.offsetPolicy",
"edit": "conjugation lost in a subview",
"breaks": [
"C41"
],
"count": 1
},
{
"def": "conjugateTransposed",
"file": "Verif/Model/Accessors.lean",
"old": "pure (t.conjugated c)",
"new": "pure t",
"edit": "not conjugated",
"breaks": [
"C41"
],
"count": 1
},
{
"def": "submdspan",
"file": "Verif/Model/Accessors.lean",
"old": "A.map.offset i0 j0",
"new": "A.map.offset j0 i0",
"edit": "window starts at the transposed index",
"breaks": [
"C41"
],
"count": 1
},
{
"def": "strideOf",
"file": "Verif/Model/Layouts.lean",
"old": "n.strideOf (if r = 0 then 1 else 0)",
"new": "n.strideOf r",
"edit": "strides of a transposed layout not exchanged",
"breaks": [
"C38"
],
"count": 1
},
{
"def": "mkRightPadded",
"file": "Verif/Model/Layouts.lean",
"old": "leastMultiple pad e.e1",
"new": "leastMultiple pad e.e0",
"edit": "padding computed from the wrong extent",
"breaks": [
"C38"
],
"count": 1
},
{
"def": "conjugatedScalar",
"file": "Verif/Model/Proxy.lean",
"old": "fun v => ConjOps.conj v",
"new": "fun v => v",
"edit": "not conjugated",
"breaks": [
"C44"
],
"count": 1
},
{
"def": "neg",
"file": "Verif/Model/Proxy.lean",
"old": "pure (-v)",
"new": "pure v",
"edit": "sign lost",
"breaks": [
"C44"
],
"count": 1
},
{
"def": "abs",
"file": "Verif/Model/Proxy.lean",
"old": "if isUnsigned then pure (ofUnsigned v) else pure (absFn v)",
"new": "pure (ofUnsigned v)",
"edit": "signed values returned unchanged",
"breaks": [
"C44"
],
"count": 1
},
{
"def": "kLower",
"file": "Verif/Model/IndexTypes.lean",
"old": "add sz int i 1",
"new": "pure i",
"edit": "implicit unit diagonal starts at the diagonal",
"breaks": [
"C51",
"C35"
],
"count": 1
},
{
"def": "trsmLowerRightT",
"file": "Verif/Model/IndexTypes.lean",
"old": "let sg := sz.makeSigned",
"new": "let sg := sz",
"edit": "signed counter replaced by size_type",
"breaks": [
"C51"
],
"count": 1
},
{
"def": "trmmRightInPlaceT",
"file": "Verif/Model/IndexTypes.lean",
"old": "cForU (fun k => lt sz (usual sz int) k j1)",
"new": "cForU (fun k => lt sz sz k j)",
"edit": "inner bound j instead of j - 1",
"breaks": [
"C51"
],
"count": 1
},
{
"def": "trsvLowerT",
"file": "Verif/Model/IndexTypes.lean",
"old": "cFor (fun j => lt sz sz j i)",
"new": "cFor (fun j => le sz sz j i)",
"edit": "diagonal subtracted too",
"breaks": [
"C51"
],
"count": 1
}
]
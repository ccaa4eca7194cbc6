[
 {
  "def": "kkCopy2",
  "file": "Verif/Model/Kokkos.lean",
  "old": "Task.forUp 0 x.view.cols",
  "new": "Task.forUp 1 x.view.cols",
  "edit": "the first column is not copied",
  "breaks": [
   "C50"
  ],
  "count": 1
 },
 {
  "def": "kkSwap2",
  "file": "Verif/Model/Kokkos.lean",
  "old": "x.view.wr i j b\n    y.view.wr i j tmp",
  "new": "x.view.wr i j b\n    y.view.wr i j b",
  "edit": "the saved element is not written back",
  "breaks": [
   "C50"
  ],
  "count": 1
 },
 {
  "def": "kkSumOfSquares",
  "file": "Verif/Model/Kokkos.lean",
  "old": "pure (update + tmp * tmp)",
  "new": "pure (update + tmp)",
  "edit": "the quotients are not squared",
  "breaks": [
   "C49"
  ],
  "count": 1
 },
 {
  "def": "kkCheckSquare",
  "file": "Verif/Model/Kokkos.lean",
  "old": "require (A.cols = x.ext)",
  "new": "require (A.cols = y.ext)",
  "edit": "x is not checked",
  "breaks": [
   "C52"
  ],
  "count": 1
 },
 {
  "def": "kkSymv",
  "file": "Verif/Model/Kokkos.lean",
  "old": "kkSymRow id A.view t x.view i",
  "new": "kkSymRow id A.view .lower x.view i",
  "edit": "the triangle is ignored",
  "breaks": [
   "C50"
  ],
  "count": 1
 },
 {
  "def": "kkSymvUpdate",
  "file": "Verif/Model/Kokkos.lean",
  "old": "z.view.wr i (yi + lsum)",
  "new": "z.view.wr i lsum",
  "edit": "y is not added",
  "breaks": [
   "C50"
  ],
  "count": 1
 },
 {
  "def": "kkTrmvUpdate",
  "file": "Verif/Model/Kokkos.lean",
  "old": "let yi ← y.view.rd i",
  "new": "let yi ← z.view.rd i",
  "edit": "z is added instead of y",
  "breaks": [
   "C50"
  ],
  "count": 1
 },
 {
  "def": "kkGer",
  "file": "Verif/Model/Kokkos.lean",
  "old": "let b ← y.view.rd j",
  "new": "let b ← y.view.rd i",
  "edit": "y(i) instead of y(j)",
  "breaks": [
   "C50"
  ],
  "count": 1
 },
 {
  "def": "kkSyr",
  "file": "Verif/Model/Kokkos.lean",
  "old": "require (A.rows = x.ext)",
  "new": "require (A.rows = A.cols)",
  "edit": "x is not checked",
  "breaks": [
   "C52"
  ],
  "count": 1
 },
 {
  "def": "kkCheckLeft",
  "file": "Verif/Model/Kokkos.lean",
  "old": "require (B.cols = C.cols)",
  "new": "require (B.rows = C.rows)",
  "edit": "the columns of C are not checked",
  "breaks": [
   "C52"
  ],
  "count": 1
 },
 {
  "def": "kkCheckRight",
  "file": "Verif/Model/Kokkos.lean",
  "old": "require (B.rows = C.rows)",
  "new": "require (B.cols = C.cols)",
  "edit": "the rows of C are not checked",
  "breaks": [
   "C52"
  ],
  "count": 1
 },
 {
  "def": "kkCheckE",
  "file": "Verif/Model/Kokkos.lean",
  "old": "require (E.cols = C.cols)",
  "new": "require (E.rows = C.rows)",
  "edit": "the columns of E are not checked",
  "breaks": [
   "C52"
  ],
  "count": 1
 },
 {
  "def": "kkSymmRightUpdate",
  "file": "Verif/Model/Kokkos.lean",
  "old": "fun i j => E.view.rd i j",
  "new": "fun i j => C.view.rd i j",
  "edit": "C is taken instead of E",
  "breaks": [
   "C48"
  ],
  "count": 1
 },
 {
  "def": "kkHemmLeft",
  "file": "Verif/Model/Kokkos.lean",
  "old": "kkLeftTerm ConjOps.conj t A B",
  "new": "kkLeftTerm id t A B",
  "edit": "the other triangle is not conjugated",
  "breaks": [
   "C50"
  ],
  "count": 1
 },
 {
  "def": "kkHemmRight",
  "file": "Verif/Model/Kokkos.lean",
  "old": "kkRightTerm ConjOps.conj t A B",
  "new": "kkLeftTerm ConjOps.conj t A B",
  "edit": "the product is formed from the left",
  "breaks": [
   "C50"
  ],
  "count": 1
 },
 {
  "def": "kkTrmmLeft",
  "file": "Verif/Model/Kokkos.lean",
  "old": "kkTrmmLeftViews t .implicitUnit",
  "new": "kkTrmmLeftViews t .explicit",
  "edit": "the stored diagonal is used",
  "breaks": [
   "C50"
  ],
  "count": 1
 },
 {
  "def": "kkTrmmRightInPlace",
  "file": "Verif/Model/Kokkos.lean",
  "old": "kkTrmmRightViews t",
  "new": "kkTrmmRightViews .upper",
  "edit": "the triangle is ignored",
  "breaks": [
   "C50"
  ],
  "count": 1
 },
 {
  "def": "kkAbsSumOf",
  "file": "Verif/Model/KokkosFloat.lean",
  "old": "pure (result + init)",
  "new": "pure result",
  "edit": "init is dropped",
  "breaks": [
   "C66"
  ],
  "count": 1
 },
 {
  "def": "kkNorm2Of",
  "file": "Verif/Model/KokkosFloat.lean",
  "old": "FloatOps.sqrt (result + init)",
  "new": "FloatOps.sqrt result",
  "edit": "init is dropped",
  "breaks": [
   "C66"
  ],
  "count": 1
 },
 {
  "def": "kkSumOfSquaresOf",
  "file": "Verif/Model/KokkosFloat.lean",
  "old": "pure (update + tmp * tmp)",
  "new": "pure (update + tmp)",
  "edit": "the quotients are not squared",
  "breaks": [
   "C66"
  ],
  "count": 1
 },
 {
  "def": "kkSumOfSquaresOf",
  "file": "Verif/Model/KokkosFloat.lean",
  "old": "(init.scalingFactor * init.scalingFactor * init.scaledSumOfSquares)",
  "new": "(init.scalingFactor * init.scaledSumOfSquares)",
  "edit": "the old scaling factor is not squared",
  "breaks": [
   "C66"
  ],
  "count": 1
 },
 {
  "def": "kkFrobNormOf",
  "file": "Verif/Model/KokkosFloat.lean",
  "old": "pure (update + tmp * tmp)",
  "new": "pure (update + tmp)",
  "edit": "the quotients are not squared",
  "breaks": [
   "C66"
  ],
  "count": 1
 },
 {
  "def": "kkInfNormOf",
  "file": "Verif/Model/KokkosFloat.lean",
  "old": "Rd.foldUp 1 A.view.cols",
  "new": "Rd.foldUp 2 A.view.cols",
  "edit": "the second column is skipped",
  "breaks": [
   "C65",
   "C66"
  ],
  "count": 1
 },
 {
  "def": "kkOneNormOf",
  "file": "Verif/Model/KokkosFloat.lean",
  "old": "let a ← A.view.look 0 j",
  "new": "let a ← A.view.look j 0",
  "edit": "first element of row j instead of column j",
  "breaks": [
   "C65",
   "C66"
  ],
  "count": 1
 },
 {
  "def": "kkCheckGemm",
  "file": "Verif/Model/KokkosKernels.lean",
  "old": "require (A.rows = C.rows)",
  "new": "require (A.rows = A.rows)",
  "edit": "the rows of C are not checked",
  "breaks": [
   "C52"
  ],
  "count": 1
 },
 {
  "def": "kkGemm",
  "file": "Verif/Model/KokkosKernels.lean",
  "old": "K.gemm .N .N 1 A.view B.view 0 C.view",
  "new": "K.gemm .N .N 1 A.view B.view 1 C.view",
  "edit": "beta = 1: the old C is added",
  "breaks": [
   "C53"
  ],
  "count": 1
 },
 {
  "def": "kkGemmFallback",
  "file": "Verif/Model/KokkosKernels.lean",
  "old": "Sched.lift (gemm A B C)",
  "new": "Sched.lift (gemm B A C)",
  "edit": "the factors are exchanged",
  "breaks": [
   "C53"
  ],
  "count": 1
 },
 {
  "def": "kkTrmmRightExplicit",
  "file": "Verif/Model/KokkosKernels.lean",
  "old": "trmmKK K .right t",
  "new": "trmmKK K .left t",
  "edit": "wrong side",
  "breaks": [
   "C53"
  ],
  "count": 1
 },
 {
  "def": "kkCopySame2",
  "file": "Verif/Model/KokkosKernels.lean",
  "old": "K.deepCopy2 y.view x.view",
  "new": "K.deepCopy2 x.view y.view",
  "edit": "copied the wrong way",
  "breaks": [
   "C53"
  ],
  "count": 1
 },
 {
  "def": "kkTrsmLeft",
  "file": "Verif/Model/KokkosKernels.lean",
  "old": "K.deepCopy2 X.view B.view",
  "new": "K.deepCopy2 B.view X.view",
  "edit": "B is overwritten by X",
  "breaks": [
   "C53"
  ],
  "count": 1
 },
 {
  "def": "syr",
  "file": "Verif/Model/StaticExtents.lean",
  "old": "st.mustMatch A 0 x 0",
  "new": "st.mustMatch A 0 A 0",
  "edit": "x is not checked",
  "breaks": [
   "C63"
  ],
  "count": 1
 },
 {
  "def": "checkRight",
  "file": "Verif/Model/StaticExtents.lean",
  "old": "st.mustMatch M 0 C 0",
  "new": "st.mustMatch M 0 C 1",
  "edit": "rows of M compared with the columns of C",
  "breaks": [
   "C63"
  ],
  "count": 1
 },
 {
  "def": "rankK",
  "file": "Verif/Model/StaticExtents.lean",
  "old": "st.mustMatch A 0 C 0",
  "new": "st.mustMatch A 1 C 0",
  "edit": "columns of A compared with C",
  "breaks": [
   "C63"
  ],
  "count": 1
 },
 {
  "def": "solveLeft",
  "file": "Verif/Model/StaticExtents.lean",
  "old": "st.mustMatch X 1 B 1",
  "new": "st.mustMatch X 1 B 0",
  "edit": "columns of X compared with the rows of B",
  "breaks": [
   "C63"
  ],
  "count": 1
 },
 {
  "def": "add",
  "file": "Verif/Model/StaticExtents.lean",
  "old": "(List.range' 0 rank)",
  "new": "(List.range' 1 rank)",
  "edit": "the loop over the ranks starts at 1",
  "breaks": [
   "C63"
  ],
  "count": 1
 },
 {
  "def": "rescaleLoop",
  "file": "Verif/Model/Givens.lean",
  "old": "some (f1, g1, count + 1)",
  "new": "some (f1, g1, count)",
  "edit": "the last step is not counted",
  "breaks": [
   "C13"
  ],
  "count": 1
 },
 {
  "def": "scaleBack",
  "file": "Verif/Model/Givens.lean",
  "old": "scaleBack k n (r * k)",
  "new": "scaleBack k n r",
  "edit": "r is not scaled back",
  "breaks": [
   "C13"
  ],
  "count": 1
 },
 {
  "def": "setupGivensComplex",
  "file": "Verif/Model/Givens.lean",
  "old": "if g = 0 then some (1, 0, f)",
  "new": "if f = 0 then some (1, 0, f)",
  "edit": "the test of g tests f",
  "breaks": [
   "C14"
  ],
  "count": 1
 },
 {
  "def": "abs1",
  "file": "Verif/Model/Givens.lean",
  "old": "max |z.re| |z.im|",
  "new": "|z.re|",
  "edit": "the imaginary part is ignored",
  "breaks": [
   "C14"
  ],
  "count": 1
 },
 {
  "def": "givensTailOf",
  "file": "Verif/Model/GivensFloat.lean",
  "old": "let sn := cmulOf (r.1 / d, r.2 / d) (gs.1, -gs.2)",
  "new": "let sn := cmulOf (r.1 / d, r.2 / d) (gs.1, gs.2)",
  "edit": "gs is not conjugated",
  "breaks": [
   "C61"
  ],
  "count": 1
 },
 {
  "def": "setupGivensCplxOf",
  "file": "Verif/Model/GivensFloat.lean",
  "old": "some (givensTailOf hyp safmin safmn2 safmx2 f g fs gs count 0)",
  "new": "some (givensTailOf hyp safmin safmn2 safmx2 f g fs gs 0 count)",
  "edit": "r is scaled back the wrong way",
  "breaks": [
   "C61"
  ],
  "count": 1
 },
 {
  "def": "leastMultiple",
  "file": "Verif/Model/Layouts.lean",
  "old": "(y + (x - 1)) / x * x",
  "new": "y / x * x",
  "edit": "rounded down",
  "breaks": [
   "C38"
  ],
  "count": 1
 },
 {
  "def": "stridedSpan",
  "file": "Verif/Model/Layouts.lean",
  "old": "1 + (e.e0 - 1) * s0 + (e.e1 - 1) * s1",
  "new": "(e.e0 - 1) * s0 + (e.e1 - 1) * s1",
  "edit": "span one too small",
  "breaks": [
   "C43"
  ],
  "count": 1
 },
 {
  "def": "strideOf",
  "file": "Verif/Model/Layouts.lean",
  "old": "| transpose n, r => n.strideOf (if r = 0 then 1 else 0)",
  "new": "| transpose n, r => n.strideOf r",
  "edit": "strides of the transposed mapping not exchanged",
  "breaks": [
   "C38"
  ],
  "count": 1
 },
 {
  "def": "trsmLowerLeftT",
  "file": "Verif/Model/IndexTypes.lean",
  "old": "cFor (fun j => lt sz sz j i)",
  "new": "cFor (fun j => le sz sz j i)",
  "edit": "loop includes the diagonal",
  "breaks": [
   "C51"
  ],
  "count": 1
 },
 {
  "def": "trsmUpperRightT",
  "file": "Verif/Model/IndexTypes.lean",
  "old": "pure (s - xk * a)",
  "new": "pure (s - a * xk)",
  "edit": "factors exchanged",
  "breaks": [
   "C51"
  ],
  "count": 1
 },
 {
  "def": "trsvT",
  "file": "Verif/Model/IndexTypes.lean",
  "old": "| .lower => trsvLowerT fuel",
  "new": "| .lower => trsvUpperT fuel",
  "edit": "the triangle is ignored",
  "breaks": [
   "C51"
  ],
  "count": 1
 },
 {
  "def": "binary3",
  "file": "Verif/Model/Proxy.lean",
  "old": "pure (symbol lhs b)",
  "new": "pure (symbol lhs lhs)",
  "edit": "proxy not used",
  "breaks": [
   "C44"
  ],
  "count": 1
 },
 {
  "def": "scaledScalar",
  "file": "Verif/Model/Proxy.lean",
  "old": "⟨cell, fun v => mul s v, conv, back⟩",
  "new": "⟨cell + 1, fun v => mul s v, conv, back⟩",
  "edit": "refers to the next cell",
  "breaks": [
   "C44"
  ],
  "count": 1
 }
]
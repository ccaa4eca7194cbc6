[
 {
  "def": "givensTailOf",
  "file": "Verif/Model/GivensFloat.lean",
  "old": "(0, (gs.1 / d, -gs.2 / d), (hyp g.1 g.2, 0))",
  "new": "(0, (gs.1 / d, gs.2 / d), (hyp g.1 g.2, 0))",
  "edit": "sn is not conjugated if f is zero",
  "breaks": [
   "C61"
  ],
  "count": 1
 },
 {
  "def": "givensTailOf",
  "file": "Verif/Model/GivensFloat.lean",
  "old": "(hyp g.1 g.2, 0))",
  "new": "(d, 0))",
  "edit": "r is computed from the scaled g if f is zero",
  "breaks": [
   "C61"
  ],
  "count": 1
 },
 {
  "def": "givensTailOf",
  "file": "Verif/Model/GivensFloat.lean",
  "old": "let cs := f2s / g2s",
  "new": "let cs := g2s / f2s",
  "edit": "cs inverted for tiny f",
  "breaks": [
   "C61"
  ],
  "count": 1
 },
 {
  "def": "givensTailOf",
  "file": "Verif/Model/GivensFloat.lean",
  "old": "(cs * f.1 + sg.1, cs * f.2 + sg.2)",
  "new": "(cs * fs.1 + sg.1, cs * fs.2 + sg.2)",
  "edit": "r uses the scaled f for tiny f",
  "breaks": [
   "C61"
  ],
  "count": 1
 },
 {
  "def": "givensTailOf",
  "file": "Verif/Model/GivensFloat.lean",
  "old": "let dr := safmx2 * f.1",
  "new": "let dr := safmn2 * f.1",
  "edit": "the real part is scaled the wrong way for tiny f",
  "breaks": [
   "C61"
  ],
  "count": 1
 },
 {
  "def": "givensTailOf",
  "file": "Verif/Model/GivensFloat.lean",
  "old": "stdMax g2 1 * safmin",
  "new": "g2 * safmin",
  "edit": "the test for tiny f does not use max(g2, 1)",
  "breaks": [
   "C61"
  ],
  "count": 1
 },
 {
  "def": "givensTailOf",
  "file": "Verif/Model/GivensFloat.lean",
  "old": "let d := f2 + g2",
  "new": "let d := g2",
  "edit": "sn divided by g2 only",
  "breaks": [
   "C61"
  ],
  "count": 1
 },
 {
  "def": "abs1Of",
  "file": "Verif/Model/GivensFloat.lean",
  "old": "stdMax (FloatOps.abs re) (FloatOps.abs im)",
  "new": "FloatOps.abs re",
  "edit": "the imaginary part is not looked at",
  "breaks": [
   "C61"
  ],
  "count": 1
 },
 {
  "def": "geOf",
  "file": "Verif/Model/GivensFloat.lean",
  "old": " || !FloatOps.ne a b",
  "new": "",
  "edit": "> instead of >=",
  "breaks": [
   "C61"
  ],
  "count": 1
 },
 {
  "def": "cmulOf",
  "file": "Verif/Model/GivensFloat.lean",
  "old": "a.1 * b.1 - a.2 * b.2",
  "new": "a.1 * b.1 + a.2 * b.2",
  "edit": "wrong sign in the complex product",
  "breaks": [
   "C61"
  ],
  "count": 1
 },
 {
  "def": "downIterations",
  "file": "Verif/Model/Givens.lean",
  "old": "2 - m",
  "new": "m",
  "edit": "the loop that undoes the scaling counts correctly",
  "breaks": [
   "C14"
  ],
  "count": 1
 },
 {
  "def": "abssq",
  "file": "Verif/Model/Givens.lean",
  "old": "+ z.im * z.im",
  "new": "",
  "edit": "the imaginary part is not squared",
  "breaks": [
   "C14"
  ],
  "count": 1
 },
 {
  "def": "idxMagnitudeOf",
  "file": "Verif/Model/FloatReductions.lean",
  "old": "MagOps.absRe v + MagOps.absIm v",
  "new": "MagOps.abs v",
  "edit": "modulus instead of |re|+|im|",
  "breaks": [
   "C55"
  ],
  "count": 1
 },
 {
  "def": "matrixOneNormOf",
  "file": "Verif/Model/FloatReductions.lean",
  "old": "pure (stdMax colSum result)",
  "new": "pure colSum",
  "edit": "the last column wins",
  "breaks": [
   "C62"
  ],
  "count": 1,
  "also": [
   {
    "def": "matrixOneNormOf",
    "file": "Verif/Model/Steps.lean",
    "old": "pure (stdMax colSum result)",
    "new": "pure colSum"
   }
  ]
 },
 {
  "def": "matrixFrobNormOf",
  "file": "Verif/Model/FloatReductions.lean",
  "old": "List.range' 0 A.cols",
  "new": "List.range' 1 A.cols",
  "edit": "starts in column 1",
  "breaks": [
   "C62"
  ],
  "count": 1,
  "also": [
   {
    "def": "matrixFrobNormOf",
    "file": "Verif/Model/Steps.lean",
    "old": "List.range' 0 A.cols",
    "new": "List.range' 1 A.cols"
   }
  ]
 },
 {
  "def": "matrixFrobNorm",
  "file": "Verif/Model/Blas1.lean",
  "old": "r.scalingFactor * Real.sqrt r.scaledSumOfSquares",
  "new": "Real.sqrt r.scaledSumOfSquares",
  "edit": "the scaling factor is dropped",
  "breaks": [
   "C07"
  ],
  "count": 1
 },
 {
  "def": "frobStep",
  "file": "Verif/Model/Blas1.lean",
  "old": "s.scaledSumOfSquares + quotient * quotient",
  "new": "s.scaledSumOfSquares + quotient",
  "edit": "quotient not squared",
  "breaks": [
   "C07"
  ],
  "count": 1
 },
 {
  "def": "dotc0",
  "file": "Verif/Model/Blas1.lean",
  "old": "dotc v1 v2 0",
  "new": "dotc v2 v1 0",
  "edit": "arguments swapped",
  "breaks": [
   "C02"
  ],
  "count": 1
 },
 {
  "def": "e1",
  "file": "Verif/Model/Layouts.lean",
  "old": "if e.static0.isNone then 1 else 0",
  "new": "1",
  "edit": "the second dynamic extent is taken although the first is static",
  "breaks": [
   "C38"
  ],
  "count": 1
 },
 {
  "def": "opposite",
  "file": "Verif/Model/Layouts.lean",
  "old": "| .columnMajor => .rowMajor",
  "new": "| .columnMajor => .columnMajor",
  "edit": "storage order kept",
  "breaks": [
   "C39"
  ],
  "count": 1
 },
 {
  "def": "span",
  "file": "Verif/Model/Layouts.lean",
  "old": "| leftPadded _ e s => stridedSpan e 1 s",
  "new": "| leftPadded _ e s => stridedSpan e s 1",
  "edit": "span of the transposed",
  "breaks": [
   "C43"
  ],
  "count": 1
 },
 {
  "def": "mat",
  "file": "Verif/Model/Layouts.lean",
  "old": "⟨L.ext0, L.ext1,",
  "new": "⟨L.ext1, L.ext0,",
  "edit": "extents swapped",
  "breaks": [
   "C43"
  ],
  "count": 1
 },
 {
  "def": "mkLeftPadded",
  "file": "Verif/Model/Layouts.lean",
  "old": "leastMultiple pad e.e0",
  "new": "pad",
  "edit": "the stride is not rounded up to the extent",
  "breaks": [
   "C38"
  ],
  "count": 1
 },
 {
  "def": "vec",
  "file": "Verif/Model/Layouts.lean",
  "old": "p + i * s",
  "new": "p * s + i",
  "edit": "stride applied to the handle",
  "breaks": [
   "C43"
  ],
  "count": 1
 },
 {
  "def": "isUnique",
  "file": "Verif/Model/Layouts.lean",
  "old": "| transpose n => n.isUnique",
  "new": "| transpose _ => false",
  "edit": "a transposed layout claims not to be unique",
  "breaks": [
   "C43"
  ],
  "count": 1
 },
 {
  "def": "conjIfNeeded",
  "file": "Verif/Model/Accessors.lean",
  "old": "| false => t",
  "new": "| false => β.conj t",
  "edit": "conj is applied to types that have none",
  "breaks": [
   "C41"
  ],
  "count": 1
 },
 {
  "def": "conjugated",
  "file": "Verif/Model/Accessors.lean",
  "old": "A.acc.conj c.fixConjugated",
  "new": "A.acc",
  "edit": "conjugated does nothing",
  "breaks": [
   "C41"
  ],
  "count": 1
 },
 {
  "def": "get",
  "file": "Verif/Model/Accessors.lean",
  "old": "A.map.offset i j",
  "new": "A.map.offset j i",
  "edit": "indices swapped",
  "breaks": [
   "C38"
  ],
  "count": 1
 },
 {
  "def": "conjugated",
  "file": "Verif/Model/Views.lean",
  "old": "ConjOps.conj (x.acc v)",
  "new": "x.acc (ConjOps.conj v)",
  "edit": "conjugates before the nested access",
  "breaks": [
   "C41"
  ],
  "count": 1
 },
 {
  "def": "via",
  "file": "Verif/Model/Proxy.lean",
  "old": "let v ← p.value",
  "new": "let v ← p.value\n  let v ← p.value",
  "edit": "the cell is read twice",
  "breaks": [
   "C44"
  ],
  "count": 1
 },
 {
  "def": "same",
  "file": "Verif/Model/Dispatch.lean",
  "old": "native := ⟨f, ps⟩",
  "new": "native := ⟨f, ps.reverse⟩",
  "edit": "arguments reversed in the fallback",
  "breaks": [
   "C45"
  ],
  "count": 1
 },
 {
  "def": "avail",
  "file": "Verif/Model/Dispatch.lean",
  "old": "m ≠ W.inl && (",
  "new": "(",
  "edit": "a backend is looked for also for inline_exec_t",
  "breaks": [
   "C45"
  ],
  "count": 1
 },
 {
  "def": "bind1",
  "file": "Verif/Model/Dispatch.lean",
  "old": "(ps.zip vs).lookup p",
  "new": "(ps.zip vs.tail).lookup p",
  "edit": "off by one",
  "breaks": [
   "C45"
  ],
  "count": 1
 },
 {
  "def": "mustMatch",
  "file": "Verif/Model/StaticExtents.lean",
  "old": "staticExtentMatch (st u r) (st v s)",
  "new": "staticExtentMatch (st u r) (st v r)",
  "edit": "the same dimension of both",
  "breaks": [
   "C63"
  ],
  "count": 1
 },
 {
  "def": "swap",
  "file": "Verif/Model/StaticExtents.lean",
  "old": "st.computeMatch x r y r",
  "new": "st.mustMatch x r y r",
  "edit": "the check is asserted",
  "breaks": [
   "C63"
  ],
  "count": 1
 },
 {
  "def": "common3",
  "file": "Verif/Model/IndexTypes.lean",
  "old": "common (common t u) v",
  "new": "common t u",
  "edit": "the third type is ignored",
  "breaks": [
   "C51"
  ],
  "count": 1
 },
 {
  "def": "trsmUpperLeftT",
  "file": "Verif/Model/IndexTypes.lean",
  "old": "let lo ← add ptrdiff int i 1",
  "new": "let lo ← add ptrdiff int i 0",
  "edit": "sum starts at the diagonal",
  "breaks": [
   "C51"
  ],
  "count": 1
 },
 {
  "def": "trmmRightT",
  "file": "Verif/Model/IndexTypes.lean",
  "old": "let lo ← kLower sz d j",
  "new": "let lo ← kUpper sz d j",
  "edit": "wrong bound",
  "breaks": [
   "C51"
  ],
  "count": 1
 },
 {
  "def": "trsmRightT",
  "file": "Verif/Model/IndexTypes.lean",
  "old": "| .lower => trsmLowerRightT",
  "new": "| .lower => trsmUpperRightT",
  "edit": "wrong triangle",
  "breaks": [
   "C51"
  ],
  "count": 1
 },
 {
  "def": "addAt",
  "file": "Verif/Model/IndexTypes.lean",
  "old": "C.put t i j (o + v)",
  "new": "C.put t i j v",
  "edit": "element overwritten",
  "breaks": [
   "C51"
  ],
  "count": 1
 },
 {
  "def": "kkSymmLeftUpdate",
  "file": "Verif/Model/Kokkos.lean",
  "old": "E.view.rd i j",
  "new": "C.view.rd i j",
  "edit": "C instead of E",
  "breaks": [
   "C50"
  ],
  "count": 1
 },
 {
  "def": "kkSymmRight",
  "file": "Verif/Model/Kokkos.lean",
  "old": "kkRightTerm id t A B",
  "new": "kkLeftTerm id t A B",
  "edit": "product from the left",
  "breaks": [
   "C50"
  ],
  "count": 1
 },
 {
  "def": "kkTrmmLeftInPlace",
  "file": "Verif/Model/Kokkos.lean",
  "old": "kkCheckLeft A C C\n",
  "new": "",
  "edit": "no check",
  "breaks": [
   "C52"
  ],
  "count": 1
 },
 {
  "def": "kkTrmmRight",
  "file": "Verif/Model/Kokkos.lean",
  "old": ".implicitUnit A.view B.view C.view",
  "new": ".explicit A.view B.view C.view",
  "edit": "explicit diagonal",
  "breaks": [
   "C50"
  ],
  "count": 1
 },
 {
  "def": "require",
  "file": "Verif/Model/Kokkos.lean",
  "old": "else Sched.throw",
  "new": "else pure ()",
  "edit": "no check throws",
  "breaks": [
   "C52"
  ],
  "count": 1
 },
 {
  "def": "kkScale1",
  "file": "Verif/Model/KokkosKernels.lean",
  "old": "K.scal1 x.view alpha x.view",
  "new": "K.scal1 x.mdspan alpha x.mdspan",
  "edit": "uses the strides",
  "breaks": [
   "C53"
  ],
  "count": 1
 },
 {
  "def": "kkTrmmRightInPlaceExplicit",
  "file": "Verif/Model/KokkosKernels.lean",
  "old": "trmmKK K .right",
  "new": "trmmKK K .left",
  "edit": "wrong side",
  "breaks": [
   "C53"
  ],
  "count": 1
 },
 {
  "def": "hemmRight",
  "file": "Verif/Model/Blas3.lean",
  "old": "if j ≤ k then A.get k j",
  "new": "if j < k then A.get k j",
  "edit": "the diagonal is conjugated",
  "breaks": [
   "C33"
  ],
  "count": 1,
  "also": [
   {
    "def": "hemmRight",
    "file": "Verif/Model/Mixed.lean",
    "old": "if j ≤ k then A.get k j",
    "new": "if j < k then A.get k j"
   },
   {
    "def": "hemmRight",
    "file": "Verif/Model/Steps.lean",
    "old": "if j ≤ k then A.rd k j",
    "new": "if j < k then A.rd k j"
   }
  ]
 },
 {
  "def": "syrkAlpha",
  "file": "Verif/Model/Blas2.lean",
  "old": "let b ← A.get j k",
  "new": "let b ← A.get i k",
  "edit": "A(i,k) squared",
  "breaks": [
   "C28"
  ],
  "count": 1,
  "also": [
   {
    "def": "syrkAlpha",
    "file": "Verif/Model/Mixed.lean",
    "old": "let b ← A.get j k",
    "new": "let b ← A.get i k"
   },
   {
    "def": "syrkAlpha",
    "file": "Verif/Model/Steps.lean",
    "old": "let b ← A.rd j k",
    "new": "let b ← A.rd i k"
   }
  ]
 },
 {
  "def": "fillFrom",
  "file": "Verif/Model/Blas2.lean",
  "old": "forUp 0 n",
  "new": "forUp 1 n",
  "edit": "first element not copied",
  "breaks": [
   "C16"
  ],
  "count": 1,
  "also": [
   {
    "def": "fillFrom",
    "file": "Verif/Model/Mixed.lean",
    "old": "forUp 0 n",
    "new": "forUp 1 n"
   },
   {
    "def": "fillFrom",
    "file": "Verif/Model/Steps.lean",
    "old": "forUp 0 n",
    "new": "forUp 1 n"
   }
  ]
 }
]
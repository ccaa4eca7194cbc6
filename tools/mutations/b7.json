[
 {
  "def": "hostEachMatrixElement",
  "file": "Verif/Model/KokkosHost.lean",
  "old": "action i j)\n  Host.fenced",
  "new": "action i j)\n  pure ()",
  "edit": "no fence after the element loop",
  "breaks": [
   "C79"
  ],
  "count": 1
 },
 {
  "def": "hostEachUpperElement",
  "file": "Verif/Model/KokkosHost.lean",
  "old": "  Host.launch (parFor A.cols fun j => Task.forUp 0 (j + 1) fun i => action i j)\n  Host.fenced",
  "new": "  Host.fenced\n  Host.launch (parFor A.cols fun j => Task.forUp 0 (j + 1) fun i => action i j)",
  "edit": "fence before the loop instead of after it",
  "breaks": [
   "C79"
  ],
  "count": 1
 },
 {
  "def": "hostSymv",
  "file": "Verif/Model/KokkosHost.lean",
  "old": "y.view.wr i lsum)\n  Host.fenced",
  "new": "y.view.wr i lsum)\n  pure ()",
  "edit": "no fence",
  "breaks": [
   "C79"
  ],
  "count": 1
 },
 {
  "def": "hostSwap1",
  "file": "Verif/Model/KokkosHost.lean",
  "old": "y.view.wr i tmp)\n  Host.fenced",
  "new": "y.view.wr i tmp)\n  pure ()",
  "edit": "no fence",
  "breaks": [
   "C79"
  ],
  "count": 1
 },
 {
  "def": "hostCopy2",
  "file": "Verif/Model/KokkosHost.lean",
  "old": "y.view.wr i j v)\n  Host.fenced",
  "new": "y.view.wr i j v)\n  pure ()",
  "edit": "no fence",
  "breaks": [
   "C79"
  ],
  "count": 1
 },
 {
  "def": "hostCopy1",
  "file": "Verif/Model/KokkosHost.lean",
  "old": "Host.launch (K.deepCopy1 y.view x.view)\n  Host.fenced",
  "new": "Host.launch (K.deepCopy1 y.view x.view)",
  "edit": "no fence after the deep copy",
  "breaks": [
   "C79"
  ],
  "count": 1
 },
 {
  "def": "hostTrmmLeftViews",
  "file": "Verif/Model/KokkosHost.lean",
  "old": "Host.forEach (List.range C.rows) fun ii =>",
  "new": "Host.forEach (List.range (C.rows - 1)) fun ii =>",
  "edit": "one row is not submitted",
  "breaks": [
   "C79"
  ],
  "count": 1
 },
 {
  "def": "hostTrmmRightViews",
  "file": "Verif/Model/KokkosHost.lean",
  "old": "C.wr i j s)",
  "new": "C.wr i j s) >>= fun _ => Host.fenced",
  "edit": "fence after every column (the early return is gone)",
  "breaks": [
   "C79"
  ],
  "count": 1
 },
 {
  "def": "hostTrmvUpdate",
  "file": "Verif/Model/KokkosHost.lean",
  "old": "  Host.require (A.rows = z.ext)\n",
  "new": "",
  "edit": "check of z dropped",
  "breaks": [
   "C79"
  ],
  "count": 1
 },
 {
  "def": "hostDot",
  "file": "Verif/Model/KokkosHost.lean",
  "old": "pure (result + init)",
  "new": "pure result",
  "edit": "init is lost",
  "breaks": [
   "C79"
  ],
  "count": 1
 },
 {
  "def": "hostFrobNorm",
  "file": "Verif/Model/KokkosHost.lean",
  "old": "let a ← Host.here (A.toMat.get 0 0)\n    pure (init + AbsOps.abs a)",
  "new": "let a ← Host.await (parReduce 1 (fun k (u : ℝ) => do\n      let b ← A.view.look k k\n      pure (u + AbsOps.abs b)) 0 (fun a b => a + b))\n    pure (init + a)",
  "edit": "the 1x1 case waits (the early read is gone)",
  "breaks": [
   "C79"
  ],
  "count": 1
 },
 {
  "def": "hostTrsmLeft",
  "file": "Verif/Model/KokkosHost.lean",
  "old": "Host.await (K.deepCopy2 X.view B.view)\n  Host.launch (trsmKK K .left t d A.view X.view)",
  "new": "Host.launch (trsmKK K .left t d A.view X.view)\n  Host.await (K.deepCopy2 X.view B.view)",
  "edit": "solve submitted before the right side is copied",
  "breaks": [
   "C79"
  ],
  "count": 1
 },
 {
  "def": "hostGemvUpdate",
  "file": "Verif/Model/KokkosHost.lean",
  "old": "z.view.wr i zi)\n  Host.fenced",
  "new": "z.view.wr i zi)",
  "edit": "no fence",
  "breaks": [
   "C79"
  ],
  "count": 1
 },
 {
  "def": "hostHer2",
  "file": "Verif/Model/KokkosHost.lean",
  "old": "let c ← y.view.rd i",
  "new": "let c ← y.view.rd j",
  "edit": "y(j) instead of y(i)",
  "breaks": [
   "C79"
  ],
  "count": 1
 },
 {
  "def": "scale1T",
  "file": "Verif/Model/IndexTypesAll.lean",
  "old": "upTo tx tx fuel 0 x.ext",
  "new": "upTo int tx fuel 0 x.ext",
  "edit": "counter is int",
  "breaks": [
   "C51"
  ],
  "count": 1
 },
 {
  "def": "copy2T",
  "file": "Verif/Model/IndexTypesAll.lean",
  "old": "let sz := common tx ty",
  "new": "let sz := tx",
  "edit": "size_type is the index type of x",
  "breaks": [
   "C51"
  ],
  "count": 1
 },
 {
  "def": "gemvUpdateT",
  "file": "Verif/Model/IndexTypesAll.lean",
  "old": "common4 tA.makeUnsigned tx ty tz",
  "new": "common4 tA tx ty ⟨true, 8⟩",
  "edit": "wrong common type",
  "breaks": [
   "C51"
  ],
  "count": 1
 },
 {
  "def": "symvAccT",
  "file": "Verif/Model/IndexTypesAll.lean",
  "old": "let lo ← add sz sz j 1\n      upTo sz tA fuel (sz.cast lo) A.rows",
  "new": "let lo ← add sz sz j 1\n      upTo sz tA fuel (sz.cast (tA.cast (lo + 1))) A.rows",
  "edit": "lower part starts one row too late",
  "breaks": [
   "C51"
  ],
  "count": 1
 },
 {
  "def": "trmvAccT",
  "file": "Verif/Model/IndexTypesAll.lean",
  "old": "(if d = .explicit then add sz sz j 1 else pure j)",
  "new": "(if d = .explicit then pure j else add sz sz j 1)",
  "edit": "i_upper swapped",
  "breaks": [
   "C51"
  ],
  "count": 1
 },
 {
  "def": "trmvInPlaceT",
  "file": "Verif/Model/IndexTypesAll.lean",
  "old": "let k1 ← add sz sz k 1\n      let j0 ← sub tA (usual sz sz) A.cols k1",
  "new": "let j0 ← sub tA (usual sz sz) A.cols k",
  "edit": "j = extent - k",
  "breaks": [
   "C51"
  ],
  "count": 1
 },
 {
  "def": "triangleLoop1T",
  "file": "Verif/Model/IndexTypesAll.lean",
  "old": "le sz sz i j",
  "new": "lt sz sz i j",
  "edit": "diagonal missed for upper",
  "breaks": [
   "C51"
  ],
  "count": 1
 },
 {
  "def": "triangleLoop2T",
  "file": "Verif/Model/IndexTypesAll.lean",
  "old": "add sz int j 1",
  "new": "add ⟨true, 8⟩ ⟨true, 8⟩ j 1",
  "edit": "j + 1 in a small type",
  "breaks": [
   "C51"
  ],
  "count": 1
 },
 {
  "def": "hemmLeftT",
  "file": "Verif/Model/IndexTypesAll.lean",
  "old": "upTo sz tA fuel (sz.cast lo) A.rows",
  "new": "upTo sz tA fuel (sz.cast i) A.rows",
  "edit": "diagonal counted twice",
  "breaks": [
   "C51"
  ],
  "count": 1
 },
 {
  "def": "applyGivensT",
  "file": "Verif/Model/IndexTypesAll.lean",
  "old": "(sz.cast x.ext)",
  "new": "(IntTy.cast ⟨true, 8⟩ x.ext)",
  "edit": "extent stored in a small type",
  "breaks": [
   "C51"
  ],
  "count": 1
 },
 {
  "def": "vectorIdxAbsMaxT",
  "file": "Verif/Model/IndexTypesAll.lean",
  "old": "then pure tv.max",
  "new": "then pure 0",
  "edit": "0 for an empty vector",
  "breaks": [
   "C51"
  ],
  "count": 1
 },
 {
  "def": "gemmT",
  "file": "Verif/Model/IndexTypesAll.lean",
  "old": "upTo sz tA fuel 0 A.cols",
  "new": "upTo sz tB fuel 0 B.cols",
  "edit": "inner loop over B's columns",
  "breaks": [
   "C51"
  ],
  "count": 1
 },
 {
  "def": "vectorAbsSumT",
  "file": "Verif/Model/IndexTypesAll.lean",
  "old": "let numElt := tv.cast v.ext",
  "new": "let numElt := IntTy.cast ⟨true, 16⟩ v.ext",
  "edit": "numElt stored in a short",
  "breaks": [
   "C51"
  ],
  "count": 1
 },
 {
  "def": "symmRightT",
  "file": "Verif/Model/IndexTypesAll.lean",
  "old": "(if le sz sz j k then A.at_ tA k j else A.at_ tA j k)",
  "new": "(if lt sz sz j k then A.at_ tA j k else A.at_ tA k j)",
  "edit": "other triangle read",
  "breaks": [
   "C51"
  ],
  "count": 1
 },
 {
  "def": "dot",
  "file": "Verif/Model/Steps.lean",
  "old": "let b ← v2.rd k\n    pure (s + a * b)",
  "new": "let _ ← v1.rd k\n    let b ← v2.rd k\n    pure (s + a * b)",
  "edit": "v1(k) is read twice",
  "breaks": [
   "C68"
  ],
  "count": 1
 },
 {
  "def": "gemv",
  "file": "Verif/Model/Steps.lean",
  "old": "y.wr i 0",
  "new": "y.wr i 0\n    y.wr i 0",
  "edit": "y(i) is cleared twice",
  "breaks": [
   "C68"
  ],
  "count": 1
 },
 {
  "def": "gemm",
  "file": "Verif/Model/Steps.lean",
  "old": "C.wr i j 0",
  "new": "let _ ← C.rd i j\n    C.wr i j 0",
  "edit": "C(i,j) is read before it is cleared",
  "breaks": [
   "C68",
   "C58"
  ],
  "count": 1
 },
 {
  "def": "copy1",
  "file": "Verif/Model/Steps.lean",
  "old": "Task.forUp 0 y.ext",
  "new": "Task.forUp 0 x.ext",
  "edit": "loop over x",
  "breaks": [
   "C68",
   "C58"
  ],
  "count": 1
 }
]
[
 {
  "def": "copy1",
  "file": "Verif/Model/Blas1.lean",
  "old": "forUp 0 y.ext fun i => do",
  "new": "forDown y.ext fun i => do",
  "edit": "the loop runs downwards",
  "breaks": [
   "C81"
  ],
  "count": 1
 },
 {
  "def": "copy2",
  "file": "Verif/Model/Blas1.lean",
  "old": "forUp 0 y.cols fun j => forUp 0 y.rows fun i => do",
  "new": "forUp 0 y.rows fun i => forUp 0 y.cols fun j => do",
  "edit": "the loop over rows is the outer one",
  "breaks": [
   "C81"
  ],
  "count": 1
 },
 {
  "def": "add1",
  "file": "Verif/Model/Blas1.lean",
  "old": "    let b ← y.get i\n    z.set i (a + b)",
  "new": "    z.set i a\n    let b ← y.get i\n    z.set i (a + b)",
  "edit": "z(i) is written before y(i) is read",
  "breaks": [
   "C81"
  ],
  "count": 1
 },
 {
  "def": "swap1",
  "file": "Verif/Model/Blas1.lean",
  "old": "forUp 0 y.ext",
  "new": "forUp 0 (y.ext / 2)",
  "edit": "only the first half is exchanged",
  "breaks": [
   "C81"
  ],
  "count": 1
 },
 {
  "def": "swap2",
  "file": "Verif/Model/Blas1.lean",
  "old": "forUp 0 y.rows",
  "new": "forUp 0 j",
  "edit": "only the elements above the diagonal are exchanged",
  "breaks": [
   "C81"
  ],
  "count": 1
 },
 {
  "def": "gemv",
  "file": "Verif/Model/Blas2.lean",
  "old": "  forUp 0 A.rows fun i => do\n    y.set i 0\n",
  "new": "  forUp 0 A.rows (fun i => y.set i 0) >>= fun _ => forUp 0 A.rows fun i => do\n",
  "edit": "all of y is set to zero before the first row",
  "breaks": [
   "C81"
  ],
  "count": 1
 },
 {
  "def": "gemm",
  "file": "Verif/Model/Blas3.lean",
  "old": "forUp 0 C.rows fun i => forUp 0 C.cols fun j => do",
  "new": "forUp 0 C.cols fun j => forUp 0 C.rows fun i => do",
  "edit": "the loop over columns is the outer one",
  "breaks": [
   "C81"
  ],
  "count": 1
 },
 {
  "def": "kkSwap1",
  "file": "Verif/Model/Kokkos.lean",
  "old": "parFor x.view.ext fun i",
  "new": "parFor (x.view.ext / 2) fun i",
  "edit": "only the first half is exchanged",
  "breaks": [
   "C81"
  ],
  "count": 1
 },
 {
  "def": "kkCopy2",
  "file": "Verif/Model/Kokkos.lean",
  "old": "    let v ← x.view.rd i j\n    y.view.wr i j v",
  "new": "    let v ← x.view.rd i j\n    x.view.wr i j v",
  "edit": "x is written instead of y",
  "breaks": [
   "C81"
  ],
  "count": 1
 },
 {
  "def": "kkGemvUpdate",
  "file": "Verif/Model/Kokkos.lean",
  "old": "let xj ← x.view.rd j",
  "new": "let xj ← y.view.rd i",
  "edit": "y is read in the place of x",
  "breaks": [
   "C81"
  ],
  "count": 1
 }
]
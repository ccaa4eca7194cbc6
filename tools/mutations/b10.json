[
 {
  "def": "gemv",
  "file": "Verif/Model/Blas2.lean",
  "old": "  forUp 0 A.rows fun i => do\n    y.set i 0\n",
  "new": "  forUp 0 A.rows (fun i => y.set i 0) >>= fun _ => forUp 0 A.rows fun i => do\n",
  "edit": "all of y is set to zero before the first row",
  "breaks": [
   "C81"
  ],
  "count": 1
 },
 {
  "def": "add2",
  "file": "Verif/Model/Blas1.lean",
  "old": "forUp 0 x.cols fun j => forUp 0 x.rows fun i => do",
  "new": "forUp 0 x.rows fun i => forUp 0 x.cols fun j => do",
  "edit": "the loop over rows is the outer one",
  "breaks": [
   "C81"
  ],
  "count": 1
 },
 {
  "def": "add2",
  "file": "Verif/Model/Blas1.lean",
  "old": "    let b ← y.get i j\n    z.set i j (a + b)\n",
  "new": "    z.set i j a\n    let b ← y.get i j\n    z.set i j (a + b)\n",
  "edit": "z(i,j) is written before y(i,j) is read",
  "breaks": [
   "C81"
  ],
  "count": 1
 },
 {
  "def": "gemvUpdate",
  "file": "Verif/Model/Blas2.lean",
  "old": "  forUp 0 A.rows fun i => do\n    let v ← y.get i\n    z.set i v\n",
  "new": "  forUp 0 A.rows (fun i => y.get i >>= fun v => z.set i v) >>= fun _ => forUp 0 A.rows fun i => do\n",
  "edit": "all of y is copied to z before the first row",
  "breaks": [
   "C81"
  ],
  "count": 1
 },
 {
  "def": "gemvUpdate",
  "file": "Verif/Model/Blas2.lean",
  "old": "  forUp 0 A.rows fun i => do\n",
  "new": "  forUp 0 A.rows fun i' => do\n    let i := A.rows - 1 - i'\n",
  "edit": "the loop over rows runs downwards",
  "breaks": [
   "C81"
  ],
  "count": 1
 },
 {
  "def": "gemvUpdate",
  "file": "Verif/Model/Blas2.lean",
  "old": "    forUp 0 A.cols fun j => do\n      let a ← A.get i j\n      let b ← x.get j\n      z.addTo i (a * b)\n",
  "new": "    forUp 0 A.cols fun j => do\n      let a ← A.get i j\n      let b ← x.get j\n      z.addTo i (b * a)\n",
  "edit": "the factors are exchanged",
  "breaks": [
   "C81"
  ],
  "count": 1
 }
]
[
{
"def": "swap1",
"file": "Verif/Model/Steps.lean",
"old": "Task.forUp 0 y.ext",
"new": "Task.forUp 0 (y.ext + 1)",
"edit": "the loop runs one element too far",
"breaks": [
"C80"
],
"count": 1,
"also": [
{
"def": "swap1",
"file": "Verif/Model/Blas1.lean",
"old": "forUp 0 y.ext",
"new": "forUp 0 (y.ext + 1)"
}
]
},
{
"def": "copy2",
"file": "Verif/Model/Steps.lean",
"old": "Task.forUp 0 y.cols",
"new": "Task.forUp 0 y.rows",
"edit": "the loop over columns runs to the number of rows",
"breaks": [
"C80"
],
"count": 1,
"also": [
{
"def": "copy2",
"file": "Verif/Model/Blas1.lean",
"old": "forUp 0 y.cols",
"new": "forUp 0 y.rows"
}
]
},
{
"def": "gemv",
"file": "Verif/Model/Steps.lean",
"old": "Task.forUp 0 A.cols",
"new": "Task.forUp 0 A.rows",
"edit": "the sum runs over the rows",
"breaks": [
"C80"
],
"count": 1,
"also": [
{
"def": "gemv",
"file": "Verif/Model/Blas2.lean",
"old": "forUp 0 A.cols",
"new": "forUp 0 A.rows"
}
]
},
{
"def": "gemvUpdate",
"file": "Verif/Model/Steps.lean",
"old": "Task.forUp 0 A.rows",
"new": "Task.forUp 0 (A.rows + 1)",
"edit": "one row too many",
"breaks": [
"C80"
],
"count": 1,
"also": [
{
"def": "gemvUpdate",
"file": "Verif/Model/Blas2.lean",
"old": "forUp 0 A.rows",
"new": "forUp 0 (A.rows + 1)"
}
]
},
{
"def": "ger",
"file": "Verif/Model/Steps.lean",
"old": "Task.forUp 0 A.rows",
"new": "Task.forUp 0 A.cols",
"edit": "the loop over rows runs to the number of columns",
"breaks": [
"C80"
],
"count": 1,
"also": [
{
"def": "ger",
"file": "Verif/Model/Blas2.lean",
"old": "forUp 0 A.rows",
"new": "forUp 0 A.cols"
}
]
},
{
"def": "gemm",
"file": "Verif/Model/Steps.lean",
"old": "Task.forUp 0 A.cols",
"new": "Task.forUp 0 B.cols",
"edit": "the sum runs to the number of columns of B",
"breaks": [
"C80"
],
"count": 1,
"also": [
{
"def": "gemm",
"file": "Verif/Model/Blas3.lean",
"old": "forUp 0 A.cols",
"new": "forUp 0 B.cols"
}
]
},
{
"def": "symv",
"file": "Verif/Model/Steps.lean",
"old": "fillZero A.rows y",
"new": "fillZero (A.rows + 1) y",
"edit": "one element too many is set to zero",
"breaks": [
"C80"
],
"count": 1,
"also": [
{
"def": "symv",
"file": "Verif/Model/Blas2.lean",
"old": "fillZero A.rows y",
"new": "fillZero (A.rows + 1) y"
}
]
},
{
"def": "add",
"file": "Verif/Model/StaticExtents.lean",
"old": "computeMatch y r z r",
"new": "computeMatch y r y r",
"edit": "y is not compared with z",
"breaks": [
"C63"
],
"count": 1
},
{
"def": "swap",
"file": "Verif/Model/StaticExtents.lean",
"old": "computeMatch x r y r",
"new": "computeMatch x r x r",
"edit": "x is compared with itself",
"breaks": [
"C63"
],
"count": 1
},
{
"def": "gemv",
"file": "Verif/Model/StaticExtents.lean",
"old": "computeMatch A 1 x 0",
"new": "computeMatch A 0 x 0",
"edit": "the rows of A are compared with x",
"breaks": [
"C63"
],
"count": 1
},
{
"def": "gemm",
"file": "Verif/Model/StaticExtents.lean",
"old": "computeMatch B 1 C 1",
"new": "computeMatch B 1 C 0",
"edit": "the columns of B are compared with the rows of C",
"breaks": [
"C63"
],
"count": 1
},
{
"def": "trmv",
"file": "Verif/Model/StaticExtents.lean",
"old": "computeMatch A 1 x 0",
"new": "computeMatch A 1 y 0",
"edit": "x is never compared",
"breaks": [
"C63"
],
"count": 1
},
{
"def": "gemvUpdate",
"file": "Verif/Model/StaticExtents.lean",
"old": "computeMatch y 0 z 0",
"new": "computeMatch y 0 y 0",
"edit": "z is never compared",
"breaks": [
"C63"
],
"count": 1
}
]
import Verif.Core.Mdspan

/-!
# Parts of vectors and matrices

What `submdspan` with pairs of indices as slices gives: the same cells under shifted indices, the
same accessor.  (`submdspan` belongs to mdspan, not to this library; `C41_submdspan` is about what
its accessor policies do.)
-/

namespace StdBLAS
variable {α : Type}

/-- `m` elements of `x` starting with element `k`. -/
def Vec.slice (x : Vec) (k m : Nat) : Vec := ⟨m, fun i => x.addr (k + i)⟩

/-- `m` elements of `x` starting with element `k`. -/
def VecV.slice (x : VecV α) (k m : Nat) : VecV α := ⟨⟨m, fun i => x.addr (k + i)⟩, x.acc⟩

/-- `r` rows from row `i0`, `c` columns from column `j0`. -/
def Mat.block (A : Mat) (i0 j0 r c : Nat) : Mat := ⟨r, c, fun i j => A.addr (i0 + i) (j0 + j)⟩

/-- `r` rows from row `i0`, `c` columns from column `j0`. -/
def MatV.block (A : MatV α) (i0 j0 r c : Nat) : MatV α :=
  ⟨⟨r, c, fun i j => A.addr (i0 + i) (j0 + j)⟩, A.acc⟩

end StdBLAS

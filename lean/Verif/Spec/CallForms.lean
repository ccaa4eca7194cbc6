import Verif.Model.OverloadTable
import Mathlib.Data.List.Forall2
import Mathlib.Logic.Relation

/-!
The documented ways to call the algorithms: for each function the lists of its
parameters, without the optional execution policy in front (P1673, [linalg.algs];
names of the parameters as in the headers). Independent of the signatures in
`Model/OverloadTable.lean`, of which only the names of functions and parameters are
used.
-/

namespace StdBLAS.Overloads

/-- What a parameter stands for. -/
inductive Role
  /-- vector: `mdspan` of rank 1 -/
  | vec
  /-- matrix: `mdspan` of rank 2, any layout -/
  | mat
  /-- matrix whose layout is always unique -/
  | umat
  /-- `mdspan` of the rank of the call -/
  | arr
  /-- number: scaling factor or initial value -/
  | scalar
  /-- floating-point number of the type of the call -/
  | real
  /-- complex number of that type -/
  | complex
  /-- modifiable variable of that type -/
  | realOut
  /-- modifiable variable of that complex type -/
  | complexOut
  | triangle
  | diagonal
  | left
  | right
  /-- `sum_of_squares_result` -/
  | ssq
  /-- function object -/
  | op
  deriving DecidableEq, Repr

/-- The arguments a role admits, of any value category, in a call whose
rank-generic arrays have rank `r` and whose floating-point type is `ρ`. Numbers are
of any number type, but not `mdspan`s, tags or policies. -/
inductive Role.Admits (r ρ : Nat) : Role → Arg → Prop
  | vec (u k c) : Admits r ρ .vec ⟨.span 1 u k, c⟩
  | mat (u k c) : Admits r ρ .mat ⟨.span 2 u k, c⟩
  | umat (k c) : Admits r ρ .umat ⟨.span 2 true k, c⟩
  | arr (u k c) : Admits r ρ .arr ⟨.span r u k, c⟩
  | scalar (n k c) : Admits r ρ .scalar ⟨.num n k, c⟩
  | real (c) : Admits r ρ .real ⟨.num .real ρ, c⟩
  | complex (c) : Admits r ρ .complex ⟨.num .complex ρ, c⟩
  | realOut : Admits r ρ .realOut ⟨.num .real ρ, .lvalue⟩
  | complexOut : Admits r ρ .complexOut ⟨.num .complex ρ, .lvalue⟩
  | triangle (b c) : Admits r ρ .triangle ⟨.tri b, c⟩
  | diagonal (b c) : Admits r ρ .diagonal ⟨.diag b, c⟩
  | left (c) : Admits r ρ .left ⟨.side true, c⟩
  | right (c) : Admits r ρ .right ⟨.side false, c⟩
  | ssq (t c) : Admits r ρ .ssq ⟨.ssq t, c⟩
  | op (k c) : Admits r ρ .op ⟨.other k, c⟩

/-- Where a native algorithm gets an argument from: an argument of the call, its
conjugate, a result type the function determines, or the local division. -/
inductive Source
  | arg (i : Nat)
  | conj (i : Nat)
  | result
  | division
  deriving DecidableEq, Repr

/-- The type of that argument. -/
def Source.ty (W : World) (as : List Arg) : Source → Option Ty
  | .arg i => as[i]?.map Arg.ty
  | .conj i => match as[i]? with
    | some ⟨.span r u k, _⟩ => some (.span r u (W.conj k))
    | _ => none
  | .result => some (.num W.retKind W.retId)
  | .division => some (.other W.divide)

/-- A documented way to call a function: its parameters, and the loops that do its
work with the arguments they get. -/
structure Form where
  fn : Algo
  params : List (PName × Role)
  /-- the native algorithm that does the work, and its parameters -/
  native : Algo
  nativeParams : List (PName × Source)

/-- Names of the parameters. -/
def Form.names (f : Form) : List PName := f.params.map Prod.fst

/-- The arguments fit the roles of the parameters. -/
def Form.Fits (f : Form) (r ρ : Nat) (as : List Arg) : Prop :=
  List.Forall₂ (Role.Admits r ρ) (f.params.map Prod.snd) as

/-- A form whose loops are those of the function itself. -/
abbrev own (fn : Algo) (ps : List (PName × Role)) : Form :=
  ⟨fn, ps, fn, ps.zipIdx.map fun p => (p.1.1, .arg p.2)⟩

/-- The forms of the functions that take a vector or matrix. -/
def documented : List Form := [
  own .matrixFrobNorm [(.A, .mat), (.init, .scalar)],
  ⟨.matrixFrobNorm, [(.A, .mat)], .matrixFrobNorm, [(.A, .arg 0), (.init, .result)]⟩,
  own .matrixInfNorm [(.A, .mat), (.init, .scalar)],
  ⟨.matrixInfNorm, [(.A, .mat)], .matrixInfNorm, [(.A, .arg 0), (.init, .result)]⟩,
  own .matrixOneNorm [(.A, .mat), (.init, .scalar)],
  ⟨.matrixOneNorm, [(.A, .mat)], .matrixOneNorm, [(.A, .arg 0), (.init, .result)]⟩,
  own .dot [(.v1, .vec), (.v2, .vec), (.init, .scalar)],
  ⟨.dot, [(.v1, .vec), (.v2, .vec)], .dot, [(.v1, .arg 0), (.v2, .arg 1), (.init, .result)]⟩,
  ⟨.dotc, [(.v1, .vec), (.v2, .vec), (.init, .scalar)],
    .dot, [(.v1, .conj 0), (.v2, .arg 1), (.init, .arg 2)]⟩,
  ⟨.dotc, [(.v1, .vec), (.v2, .vec)], .dot, [(.v1, .conj 0), (.v2, .arg 1), (.init, .result)]⟩,
  ⟨.vectorSumOfSquares, [(.v, .vec), (.init, .ssq)],
    .vectorSumOfSquares, [(.x, .arg 0), (.init, .arg 1)]⟩,
  own .vectorTwoNorm [(.x, .vec), (.init, .scalar)],
  ⟨.vectorTwoNorm, [(.x, .vec)], .vectorTwoNorm, [(.x, .arg 0), (.init, .result)]⟩,
  own .vectorAbsSum [(.v, .vec), (.init, .scalar)],
  ⟨.vectorAbsSum, [(.x, .vec)], .vectorAbsSum, [(.v, .arg 0), (.init, .result)]⟩,
  own .vectorIdxAbsMax [(.v, .vec)],
  own .matrixVectorProduct [(.A, .umat), (.x, .vec), (.y, .vec)],
  own .matrixVectorProduct [(.A, .umat), (.x, .vec), (.y, .vec), (.z, .vec)],
  own .symmetricMatrixVectorProduct [(.A, .umat), (.t, .triangle), (.x, .vec), (.y, .vec)],
  own .symmetricMatrixVectorProduct
    [(.A, .umat), (.t, .triangle), (.x, .vec), (.y, .vec), (.z, .vec)],
  own .hermitianMatrixVectorProduct [(.A, .umat), (.t, .triangle), (.x, .vec), (.y, .vec)],
  own .hermitianMatrixVectorProduct
    [(.A, .umat), (.t, .triangle), (.x, .vec), (.y, .vec), (.z, .vec)],
  own .triangularMatrixVectorProduct
    [(.A, .umat), (.t, .triangle), (.d, .diagonal), (.x, .vec), (.y, .vec)],
  own .triangularMatrixVectorProduct
    [(.A, .umat), (.t, .triangle), (.d, .diagonal), (.x, .vec), (.y, .vec), (.z, .vec)],
  own .triangularMatrixVectorProduct
    [(.A, .umat), (.t, .triangle), (.d, .diagonal), (.y, .vec)],
  own .triangularMatrixVectorSolve
    [(.A, .mat), (.t, .triangle), (.d, .diagonal), (.b, .vec), (.x, .vec), (.divide, .op)],
  ⟨.triangularMatrixVectorSolve,
    [(.A, .mat), (.t, .triangle), (.d, .diagonal), (.b, .vec), (.x, .vec)],
    .triangularMatrixVectorSolve,
    [(.A, .arg 0), (.t, .arg 1), (.d, .arg 2), (.b, .arg 3), (.x, .arg 4), (.divide, .division)]⟩,
  own .matrixRank1Update [(.x, .vec), (.y, .vec), (.A, .mat)],
  ⟨.matrixRank1UpdateC, [(.x, .vec), (.y, .vec), (.A, .mat)],
    .matrixRank1Update, [(.x, .arg 0), (.y, .conj 1), (.A, .arg 2)]⟩,
  own .symmetricMatrixRank2Update [(.x, .vec), (.y, .vec), (.A, .mat), (.t, .triangle)],
  own .hermitianMatrixRank2Update [(.x, .vec), (.y, .vec), (.A, .mat), (.t, .triangle)],
  own .matrixProduct [(.A, .mat), (.B, .mat), (.C, .mat)],
  own .matrixProduct [(.A, .mat), (.B, .mat), (.E, .mat), (.C, .mat)],
  own .triangularMatrixProduct
    [(.A, .mat), (.t, .triangle), (.d, .diagonal), (.B, .mat), (.C, .mat)],
  own .triangularMatrixProduct
    [(.B, .mat), (.A, .mat), (.t, .triangle), (.d, .diagonal), (.C, .mat)],
  own .triangularMatrixLeftProduct [(.A, .mat), (.t, .triangle), (.d, .diagonal), (.C, .mat)],
  own .triangularMatrixRightProduct [(.A, .mat), (.t, .triangle), (.d, .diagonal), (.C, .mat)],
  own .symmetricMatrixProduct [(.A, .mat), (.t, .triangle), (.B, .mat), (.C, .mat)],
  own .symmetricMatrixProduct [(.B, .mat), (.A, .mat), (.t, .triangle), (.C, .mat)],
  own .symmetricMatrixProduct [(.A, .mat), (.t, .triangle), (.B, .mat), (.E, .mat), (.C, .mat)],
  own .symmetricMatrixProduct [(.B, .mat), (.A, .mat), (.t, .triangle), (.E, .mat), (.C, .mat)],
  own .hermitianMatrixProduct [(.A, .mat), (.t, .triangle), (.B, .mat), (.C, .mat)],
  own .hermitianMatrixProduct [(.B, .mat), (.A, .mat), (.t, .triangle), (.C, .mat)],
  own .hermitianMatrixProduct [(.A, .mat), (.t, .triangle), (.B, .mat), (.E, .mat), (.C, .mat)],
  own .hermitianMatrixProduct [(.B, .mat), (.A, .mat), (.t, .triangle), (.E, .mat), (.C, .mat)],
  own .symmetricMatrixRank2kUpdate [(.A, .mat), (.B, .mat), (.C, .mat), (.t, .triangle)],
  own .hermitianMatrixRank2kUpdate [(.A, .mat), (.B, .mat), (.C, .mat), (.t, .triangle)],
  own .triangularMatrixMatrixLeftSolve
    [(.A, .mat), (.t, .triangle), (.d, .diagonal), (.B, .mat), (.X, .mat)],
  own .triangularMatrixMatrixRightSolve
    [(.A, .mat), (.t, .triangle), (.d, .diagonal), (.B, .mat), (.X, .mat)],
  ⟨.triangularMatrixMatrixSolve,
    [(.A, .mat), (.t, .triangle), (.d, .diagonal), (.s, .left), (.B, .mat), (.X, .mat)],
    .triangularMatrixMatrixLeftSolve,
    [(.A, .arg 0), (.t, .arg 1), (.d, .arg 2), (.B, .arg 4), (.X, .arg 5)]⟩,
  ⟨.triangularMatrixMatrixSolve,
    [(.A, .mat), (.t, .triangle), (.d, .diagonal), (.s, .right), (.B, .mat), (.X, .mat)],
    .triangularMatrixMatrixRightSolve,
    [(.A, .arg 0), (.t, .arg 1), (.d, .arg 2), (.B, .arg 4), (.X, .arg 5)]⟩]

/-- The forms with several arguments of one floating-point type. -/
def documentedGivens : List Form := [
  own .applyGivensRotation [(.x, .vec), (.y, .vec), (.c, .real), (.s, .real)],
  own .applyGivensRotation [(.x, .vec), (.y, .vec), (.c, .real), (.s, .complex)]]

/-- The forms of the functions that take vectors or matrices, all of one rank. -/
def documentedAnyRank : List Form := [
  own .swapElements [(.x, .arr), (.y, .arr)],
  own .scale [(.alpha, .scalar), (.x, .arr)],
  own .copy [(.x, .arr), (.y, .arr)],
  own .add [(.x, .arr), (.y, .arr), (.z, .arr)]]

/-- The forms of the functions whose optional first parameters are a policy and a
scaling factor. -/
def documentedScaled : List Form := [
  own .symmetricMatrixRank1Update [(.x, .vec), (.A, .mat), (.t, .triangle)],
  own .symmetricMatrixRank1Update [(.alpha, .scalar), (.x, .vec), (.A, .mat), (.t, .triangle)],
  own .hermitianMatrixRank1Update [(.x, .vec), (.A, .mat), (.t, .triangle)],
  own .hermitianMatrixRank1Update [(.alpha, .scalar), (.x, .vec), (.A, .mat), (.t, .triangle)],
  own .symmetricMatrixRankKUpdate [(.A, .mat), (.C, .mat), (.t, .triangle)],
  own .symmetricMatrixRankKUpdate [(.alpha, .scalar), (.A, .mat), (.C, .mat), (.t, .triangle)],
  own .hermitianMatrixRankKUpdate [(.A, .mat), (.C, .mat), (.t, .triangle)],
  own .hermitianMatrixRankKUpdate [(.alpha, .scalar), (.A, .mat), (.C, .mat), (.t, .triangle)]]

/-- The forms that take no policy. -/
def documentedNoPolicy : List Form := [
  own .setupGivensRotation
    [(.f, .real), (.g, .real), (.cs, .realOut), (.sn, .realOut), (.r, .realOut)],
  own .setupGivensRotation
    [(.f, .complex), (.g, .complex), (.cs, .realOut), (.sn, .complexOut), (.r, .complexOut)]]

/-- How an overload declares a parameter of a role: `mdspan`s as `mdspan`s, complex
numbers as `std::complex`, everything else otherwise. -/
def Role.declared : Role → Pat → Bool
  | .vec, .span _ => true
  | .mat, .span _ => true
  | .umat, .span _ => true
  | .arr, .span _ => true
  | .complex, .cpx _ => true
  | .complex, .cpxCRef _ => true
  | .complexOut, .cpxRef _ => true
  | .ssq, .ssq _ => true
  | .realOut, .ref _ => true
  | .scalar, .val _ => true
  | .real, .val _ => true
  | .triangle, .val _ => true
  | .diagonal, .val _ => true
  | .left, .val _ => true
  | .right, .val _ => true
  | .op, .val _ => true
  | _, _ => false

/-- The overload of a form without policy: its parameters are those of the form. -/
def Form.IsPlain (f : Form) (o : Sig) : Prop :=
  o.names = f.names ∧ List.Forall₂ (fun q p => Role.declared q p = true) (f.params.map Prod.snd) o.pats

/-- The overload of a form with policy: a first parameter `ExecutionPolicy&&` and the
parameters of the form. -/
def Form.IsPolicy (f : Form) (o : Sig) : Prop :=
  o.names = .exec :: f.names ∧ ∃ v ps, o.pats = .fwd v :: ps ∧
    List.Forall₂ (fun q p => Role.declared q p = true) (f.params.map Prod.snd) ps

/-- The native algorithm of a form, with the arguments it gets: a first parameter
`inline_exec_t&&` and the parameters of the loops. -/
def Form.IsNative (f : Form) (W : World) (as : List Arg) (o : Sig) (bs : List Arg) : Prop :=
  o.names = .exec :: f.nativeParams.map Prod.fst ∧ o.pats.head? = some .inlineRef ∧
    bs.map (fun b => some b.ty) = some .inlineExec :: f.nativeParams.map (fun p => p.2.ty W as)

/-- Any argument that is no `mdspan`: recognised policies, and policy types that the
library does not know. -/
inductive IsForeign : Arg → Prop
  | policy (k c) : IsForeign ⟨.policy k, c⟩
  | other (k c) : IsForeign ⟨.other k, c⟩

/-- A call, and all the calls of overloaded functions that follow from it, select
exactly one overload each, and there are finitely many. `adl`: whether
argument-dependent lookup finds the overloads declared later. -/
inductive Ends (W : World) (adl : Bool) : List Sig → List Arg → Prop
  | mk {os as o} (h : resolve os as = .selected o)
      (defined : ∀ c ∈ o.calls, c.made as = true → (evalArgs W as c.args).isSome)
      (next : ∀ c ∈ o.calls, c.made as = true → ∀ bs, evalArgs W as c.args = some bs →
        Ends W adl (visible o adl (sigs c.fn)) bs) : Ends W adl os as

/-- The overload `o` of the algorithm `f` is selected, with arguments `cs`, for the
call of `g` with candidates `os` and arguments `as`, or for one of the calls that
follow from it. -/
inductive Reaches (W : World) (adl : Bool) (f : Algo) (o : Sig) (cs : List Arg) :
    Algo → List Sig → List Arg → Prop
  | here {os} (h : resolve os cs = .selected o) : Reaches W adl f o cs f os cs
  | next {g os as o' c bs} (h : resolve os as = .selected o') (hc : c ∈ o'.calls)
      (hm : c.made as = true) (hb : evalArgs W as c.args = some bs)
      (hr : Reaches W adl f o cs c.fn (visible o' adl (sigs c.fn)) bs) :
      Reaches W adl f o cs g os as

/-- A call, given by its candidates and arguments, makes another. -/
def Follows (W : World) (adl : Bool) (p q : List Sig × List Arg) : Prop :=
  ∃ o c, resolve p.1 p.2 = .selected o ∧ c ∈ o.calls ∧ c.made p.2 = true ∧
    q.1 = visible o adl (sigs c.fn) ∧ evalArgs W p.2 c.args = some q.2

/-- An endless sequence of calls, each made by the one before: endless recursion. -/
def Endless (W : World) (adl : Bool) (os : List Sig) (as : List Arg) : Prop :=
  ∃ s : Nat → List Sig × List Arg, s 0 = (os, as) ∧ ∀ n, Follows W adl (s n) (s (n + 1))

/-- An overload is selected, but a call it makes has no viable overload: an error
inside the library, not at the call of the user. -/
def BreaksInside (W : World) (adl : Bool) (os : List Sig) (as : List Arg) : Prop :=
  ∃ q, Relation.TransGen (Follows W adl) (os, as) q ∧ resolve q.1 q.2 = .none

end StdBLAS.Overloads

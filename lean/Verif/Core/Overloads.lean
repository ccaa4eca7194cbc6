/-!
Overload resolution of C++, as far as the calls of the linear algebra functions use it.

An overload is a function template: a list of parameter patterns with template
parameters, constraints on what is deduced, and (for the calls made inside the
library) the calls of overloaded functions that its body makes. A call is a list of
arguments, each with a type and a value category.

Modelled: template argument deduction, the constraints (`MDSPAN_TEMPLATE_REQUIRES`
and `std::enable_if_t` return types), the ordering of function templates by how
specialised they are, ambiguity, and the two sets of candidates of an unqualified
call in a template (with or without the functions that only argument-dependent
lookup finds).

Not modelled: implicit conversions (every argument has one of the types below and is
passed by value or bound to a reference of its own type, so all conversion sequences
are the identity and do not order the candidates), the ordering of equally
specialised templates by their constraints, return types that do not exist for the
element types, and the backend branch of the dispatching overloads (property C45).
-/

namespace StdBLAS.Overloads

/-- Kinds of number types: floating-point, `std::complex` of a floating-point type,
any other number type. -/
inductive NumKind | real | complex | other
  deriving DecidableEq, Repr

/-- The types arguments can have. The numbers tell types of one kind apart (element
types, layouts, accessors, …). -/
inductive Ty
  /-- an `mdspan`: its rank, whether `mapping::is_always_unique()` holds, and which type -/
  | span (rank : Nat) (unique : Bool) (id : Nat)
  /-- `impl::inline_exec_t` (linalg_execpolicy_mapper.hpp:13) -/
  | inlineExec
  /-- a type other than `inline_exec_t` for which
  `is_linalg_execution_policy_other_than_inline_v` is true: number 0 is
  `impl::default_exec_t`, the others are the standard policies (if
  `LINALG_HAS_EXECUTION` is defined) and the types for which
  `is_custom_linalg_execution_policy_v` is specialised
  (linalg_execpolicy_mapper.hpp:17, 28-50) -/
  | policy (id : Nat)
  /-- `upper_triangle_t`, `lower_triangle_t` -/
  | tri (upper : Bool)
  /-- `implicit_unit_diagonal_t`, `explicit_diagonal_t` -/
  | diag (unit : Bool)
  /-- `left_side_t`, `right_side_t` -/
  | side (left : Bool)
  /-- a number type; `num .complex i` is `std::complex` of `num .real i` -/
  | num (kind : NumKind) (id : Nat)
  /-- `sum_of_squares_result` of a type -/
  | ssq (t : Ty)
  /-- any other type -/
  | other (id : Nat)
  deriving DecidableEq, Repr

/-- Value category of an argument. -/
inductive Cat | lvalue | constLvalue | rvalue
  deriving DecidableEq, Repr

/-- An argument of a call. -/
structure Arg where
  ty : Ty
  cat : Cat
  deriving DecidableEq, Repr

/-- The extents in an `mdspan` parameter: `extents<S, e₁, …, eₙ>`,
`extents<S, es...>`, or a template parameter. -/
inductive Ext
  | rank (n : Nat)
  | pack
  | any
  deriving DecidableEq, Repr

/-- The parameter types of the overloads; the numbers are template parameters. -/
inductive Pat
  /-- `impl::inline_exec_t&&` -/
  | inlineRef
  /-- `T&&` -/
  | fwd (v : Nat)
  /-- `T` or `const T` -/
  | val (v : Nat)
  /-- `T&` -/
  | ref (v : Nat)
  /-- `std::complex<T>` -/
  | cpx (v : Nat)
  /-- `const std::complex<T>&` -/
  | cpxCRef (v : Nat)
  /-- `std::complex<T>&` -/
  | cpxRef (v : Nat)
  /-- `sum_of_squares_result<T>` -/
  | ssq (v : Nat)
  /-- `mdspan<…>` with template parameters of its own -/
  | span (e : Ext)
  deriving DecidableEq, Repr

/-- What a template parameter is deduced as: a type, or a reference to it. -/
structure Ded where
  ty : Ty
  isRef : Bool
  deriving DecidableEq, Repr

/-- The deduced template parameters. -/
abbrev Sub := List (Nat × Ded)

/-- Deduces one more occurrence of a parameter; occurrences must agree. -/
def Sub.bind (s : Sub) (v : Nat) (d : Ded) : Option Sub :=
  match s.lookup v with
  | none => some ((v, d) :: s)
  | some d' => if d' = d then some s else none

/-- Deduction for one parameter and its argument. `T&&` deduces a reference from an
lvalue and the type itself from an rvalue; `T&` and `std::complex<T>&` take
modifiable lvalues only. -/
def Pat.deduce (p : Pat) (a : Arg) (s : Sub) : Option Sub :=
  match p, a.ty with
  | .inlineRef, .inlineExec => match a.cat with
    | .rvalue => some s
    | _ => none
  | .fwd v, t => s.bind v ⟨t, match a.cat with | .rvalue => false | _ => true⟩
  | .val v, t => s.bind v ⟨t, false⟩
  | .ref v, t => match a.cat with
    | .lvalue => s.bind v ⟨t, false⟩
    | _ => none
  | .cpx v, .num .complex r => s.bind v ⟨.num .real r, false⟩
  | .cpxCRef v, .num .complex r => s.bind v ⟨.num .real r, false⟩
  | .cpxRef v, .num .complex r => match a.cat with
    | .lvalue => s.bind v ⟨.num .real r, false⟩
    | _ => none
  | .ssq v, .ssq t => s.bind v ⟨t, false⟩
  | .span (.rank n), .span r _ _ => if r = n then some s else none
  | .span _, .span _ _ _ => some s
  | _, _ => none

/-- Deduction for all parameters. -/
def deduceAll : List Pat → List Arg → Sub → Option Sub
  | [], [], s => some s
  | p :: ps, a :: as, s => match p.deduce a s with
    | none => none
    | some s' => deduceAll ps as s'
  | _, _, _ => none

/-- The constraints of the overloads, on a template parameter `v` or on the `mdspan`
parameter at position `i`. -/
inductive Constraint
  /-- `is_linalg_execution_policy_other_than_inline_v<T>` -/
  | policy (v : Nat)
  /-- its negation -/
  | notPolicy (v : Nat)
  /-- `!std::is_same_v<T, impl::inline_exec_t>` -/
  | notInline (v : Nat)
  /-- `!is_mdspan_v<std::remove_cv_t<std::remove_reference_t<T>>>` -/
  | notSpan (v : Nat)
  /-- `T` is `lower_triangle_t` or `upper_triangle_t` -/
  | triangle (v : Nat)
  /-- `std::is_floating_point<T>` -/
  | floating (v : Nat)
  /-- `mapping::is_always_unique()` -/
  | unique (i : Nat)
  /-- the rank is `n` -/
  | rank (i n : Nat)
  /-- the rank is at most `n` -/
  | rankLe (i n : Nat)
  /-- equal ranks -/
  | sameRank (i j : Nat)
  deriving DecidableEq, Repr

/-- Rank of the `mdspan` argument at position `i`. -/
def rankAt (as : List Arg) (i : Nat) : Option Nat :=
  match as[i]? with
  | some ⟨.span r _ _, _⟩ => some r
  | _ => none

/-- Whether a constraint holds. The traits `is_linalg_execution_policy_other_than_inline_v`
(linalg_execpolicy_mapper.hpp:42-50) and `std::is_same_v` are applied to the deduced
type as it is: they are false for references. -/
def Constraint.holds (s : Sub) (as : List Arg) : Constraint → Bool
  | .policy v => match s.lookup v with
    | some ⟨.policy _, false⟩ => true
    | _ => false
  | .notPolicy v => match s.lookup v with
    | some ⟨.policy _, false⟩ => false
    | _ => true
  | .notInline v => match s.lookup v with
    | some ⟨.inlineExec, false⟩ => false
    | _ => true
  | .notSpan v => match s.lookup v with
    | some ⟨.span _ _ _, _⟩ => false
    | _ => true
  | .triangle v => match s.lookup v with
    | some ⟨.tri _, false⟩ => true
    | _ => false
  | .floating v => match s.lookup v with
    | some ⟨.num .real _, false⟩ => true
    | _ => false
  | .unique i => match as[i]? with
    | some ⟨.span _ u _, _⟩ => u
    | _ => false
  | .rank i n => rankAt as i == some n
  | .rankLe i n => match rankAt as i with
    | some r => decide (r ≤ n)
    | none => false
  | .sameRank i j => rankAt as i == rankAt as j

/-- An argument of a call inside the library. -/
inductive ArgExpr
  /-- `impl::inline_exec_t{}` -/
  | inl
  /-- `impl::default_exec_t{}` -/
  | dflt
  /-- the parameter at position `i`, an lvalue -/
  | par (i : Nat)
  /-- `std::forward<impl::inline_exec_t>` of the parameter at position `i` -/
  | move (i : Nat)
  /-- `conjugated` of the parameter at position `i` -/
  | conj (i : Nat)
  /-- `return_t{}`: a value of the type of the result -/
  | ret
  /-- the local function object that divides -/
  | divide
  /-- a local `sum_of_squares_result<T>`, `T` the type of the parameter at position `i` -/
  | ssq (i : Nat)
  deriving DecidableEq, Repr

/-- A call inside the library: for `some (i, l)` it is made only if the side tag at
position `i` is `left_side_t` (`l = true`) or `right_side_t` (`if constexpr`). -/
structure CallOf (F : Type) where
  guard : Option (Nat × Bool)
  fn : F
  args : List ArgExpr

/-- An overload: its header (numbered in the order of inclusion) and first line, the
names and types of its parameters, its constraints, and the calls of overloaded
functions in its body. -/
structure SigOf (F N : Type) where
  header : Nat
  line : Nat
  names : List N
  pats : List Pat
  cons : List Constraint
  calls : List (CallOf F)

variable {F N : Type}

/-- The overload can be called with these arguments. -/
def SigOf.viable (o : SigOf F N) (as : List Arg) : Bool :=
  match deduceAll o.pats as [] with
  | none => false
  | some s => o.cons.all (Constraint.holds s as)

/-- Parameter types without references, for the ordering of templates. -/
def Pat.strip : Pat → Pat
  | .fwd v => .val v
  | .ref v => .val v
  | .cpxCRef v => .cpx v
  | .cpxRef v => .cpx v
  | p => p

/-- Deduction of a parameter of one template from a parameter of another one whose
template parameters stand for unique types. -/
def Pat.deducePat (p q : Pat) (s : List (Nat × Pat)) : Option (List (Nat × Pat)) :=
  let bind (v : Nat) (t : Pat) := match s.lookup v with
    | none => some ((v, t) :: s)
    | some t' => if t' = t then some s else none
  match p.strip, q.strip with
  | .val v, t => bind v t
  | .inlineRef, .inlineRef => some s
  | .cpx v, .cpx w => bind v (.val w)
  | .ssq v, .ssq w => bind v (.val w)
  | .span .any, .span _ => some s
  | .span .pack, .span (.rank _) => some s
  | .span .pack, .span .pack => some s
  | .span (.rank n), .span (.rank m) => if n = m then some s else none
  | _, _ => none

/-- The parameters `ps` can be deduced from the parameters `qs`: the template with
`qs` is at least as specialised. -/
def deducePats : List Pat → List Pat → List (Nat × Pat) → Bool
  | [], [], _ => true
  | p :: ps, q :: qs, s => match p.deducePat q s with
    | none => false
    | some s' => deducePats ps qs s'
  | _, _, _ => false

/-- `o` is more specialised than `p`. -/
def SigOf.moreSpecialised (o p : SigOf F N) : Bool :=
  deducePats p.pats o.pats [] && !deducePats o.pats p.pats []

/-- The same overload. -/
def SigOf.same (o p : SigOf F N) : Bool := o.header == p.header && o.line == p.line

/-- Outcome of overload resolution. -/
inductive Resolution (F N : Type)
  /-- no candidate is viable: the program is ill-formed -/
  | none
  /-- no candidate is better than all others: the program is ill-formed -/
  | ambiguous
  | selected (o : SigOf F N)

/-- Overload resolution among `os`. -/
def resolve (os : List (SigOf F N)) (as : List Arg) : Resolution F N :=
  match os.filter (·.viable as) with
  | [] => .none
  | v :: vs =>
    match (v :: vs).filter (fun o => (v :: vs).all fun p => o.same p || o.moreSpecialised p) with
    | [o] => .selected o
    | _ => .ambiguous

/-- What the calls inside the library depend on: the `mdspan` types that `conjugated`
returns, the number types of results, and the type of the local division. -/
structure World where
  conj : Nat → Nat
  retKind : NumKind
  retId : Nat
  divide : Nat

/-- The argument an expression stands for, in an overload called with `as`. -/
def ArgExpr.eval (W : World) (as : List Arg) : ArgExpr → Option Arg
  | .inl => some ⟨.inlineExec, .rvalue⟩
  | .dflt => some ⟨.policy 0, .rvalue⟩
  | .par i => as[i]?.map fun a => ⟨a.ty, .lvalue⟩
  | .move i => as[i]?.map fun a => ⟨a.ty, .rvalue⟩
  | .conj i => match as[i]? with
    | some ⟨.span r u k, _⟩ => some ⟨.span r u (W.conj k), .rvalue⟩
    | _ => none
  | .ret => some ⟨.num W.retKind W.retId, .rvalue⟩
  | .divide => some ⟨.other W.divide, .lvalue⟩
  | .ssq i => as[i]?.map fun a => ⟨.ssq a.ty, .lvalue⟩

/-- The arguments of a call inside the library. -/
def evalArgs (W : World) (as : List Arg) : List ArgExpr → Option (List Arg)
  | [] => some []
  | e :: es => match e.eval W as, evalArgs W as es with
    | some a, some bs => some (a :: bs)
    | _, _ => none

/-- Whether a call inside the library is made. -/
def CallOf.made (c : CallOf F) (as : List Arg) : Bool :=
  match c.guard with
  | none => true
  | some (i, l) => match as[i]? with
    | some ⟨.side l', _⟩ => l == l'
    | _ => !l

/-- The candidates of a call of a function with overloads `os` in the body of `o`:
the overloads declared before the end of the declaration of `o`, and the later ones
if argument-dependent lookup finds them. -/
def visible (o : SigOf F N) (adl : Bool) (os : List (SigOf F N)) : List (SigOf F N) :=
  os.filter fun p => adl || decide (p.header < o.header) ||
    (p.header == o.header && decide (p.line ≤ o.line))

end StdBLAS.Overloads

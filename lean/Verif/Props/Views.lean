import Verif.Model.Accessors
import Verif.Props.Layouts
import Verif.Core.Scalar

/-!
# Views: C41
-/

namespace StdBLAS

/-! ## Specification: what a nesting of views denotes -/

/-- A nesting of views on a matrix with elements of type `σ`; the index is the element type of
the view. -/
inductive ViewExpr (σ : ElemTy) : ElemTy → Type 1 where
  | base : ViewExpr σ σ
  | scaled {S : Type} {β γ : ElemTy} (mul : S → β.carrier → γ.carrier) (s : S) (v : ViewExpr σ β) :
      ViewExpr σ γ
  | conjugated {β : ElemTy} (v : ViewExpr σ β) : ViewExpr σ β
  | transposed {β : ElemTy} (v : ViewExpr σ β) : ViewExpr σ β
  | conjugateTransposed {β : ElemTy} (v : ViewExpr σ β) : ViewExpr σ β

namespace ViewExpr
variable {σ : ElemTy}

/-- The conjugate in an element type: `conj` for types that have one and are not arithmetic
(complex numbers and the like), the value itself for others. -/
def conjugate (β : ElemTy) (x : β.carrier) : β.carrier :=
  if β.hasConj = true ∧ β.arith = false then β.conj x else x

/-- The element `(i, j)` of the view on the matrix with elements `a`. -/
def denote {β : ElemTy} : ViewExpr σ β → (Nat → Nat → σ.carrier) → Nat → Nat → β.carrier
  | .base, a, i, j => a i j
  | .scaled mul s v, a, i, j => mul s (v.denote a i j)
  | .conjugated (β := β) v, a, i, j => conjugate β (v.denote a i j)
  | .transposed v, a, i, j => v.denote a j i
  | .conjugateTransposed (β := β) v, a, i, j => conjugate β (v.denote a j i)

/-- Whether rows and columns are exchanged. -/
def flips {β : ElemTy} : ViewExpr σ β → Bool
  | .base => false
  | .scaled _ _ v => v.flips
  | .conjugated v => v.flips
  | .transposed v => !v.flips
  | .conjugateTransposed v => !v.flips

/-- Number of calls of `transposed` and `conjugate_transposed`. -/
def transposes {β : ElemTy} : ViewExpr σ β → Nat
  | .base => 0
  | .scaled _ _ v => v.transposes
  | .conjugated v => v.transposes
  | .transposed v => v.transposes + 1
  | .conjugateTransposed v => v.transposes + 1

/-- Calling the library's functions from the inside out. -/
def build {β : ElemTy} (c : Config) (A : Mdspan2 σ σ) :
    ViewExpr σ β → Except NoTranspose (Mdspan2 σ β)
  | .base => .ok A
  | .scaled mul s v => (v.build c A).map (Mdspan2.scaled mul s)
  | .conjugated v => (v.build c A).map (Mdspan2.conjugated c)
  | .transposed v => v.build c A >>= Mdspan2.transposed c
  | .conjugateTransposed v => v.build c A >>= Mdspan2.conjugateTransposed c

end ViewExpr

section
variable {σ β : ElemTy}

theorem conjIfNeeded_eq (x : β.carrier) : β.conjIfNeeded x = ViewExpr.conjugate β x := by
  unfold ElemTy.conjIfNeeded ViewExpr.conjugate
  cases β.hasConj <;> cases β.arith <;> simp

theorem conjugate_conjugate (x : β.carrier) :
    ViewExpr.conjugate β (ViewExpr.conjugate β x) = x := by
  unfold ViewExpr.conjugate
  split_ifs
  · exact β.conj_conj x
  · rfl

/-- The value an accessor makes of a stored value. -/
def Accessor.value {β : ElemTy} : Accessor σ β → σ.carrier → β.carrier
  | .default, v => v
  | .scaled mul s a, v => mul s (a.value v)
  | .conjugated (β := β) a, v => ViewExpr.conjugate β (a.value v)

theorem Accessor.access_eq (a : Accessor σ β) (p i : Nat) (h : Heap σ.carrier) (w : σ.carrier)
    (hw : h (p + i) = some w) (Q : β.carrier → Heap σ.carrier → Prop) :
    Ends (a.access p i) h Q ↔ Q (a.value w) h := by
  induction a with
  | default => simp [Accessor.access, Accessor.value, hw]
  | scaled mul s a ih => simp [Accessor.access, Accessor.value, ih]
  | conjugated a ih => simp [Accessor.access, Accessor.value, ih, conjIfNeeded_eq]

theorem Accessor.value_conj (fix : Bool) (a : Accessor σ β) (v : σ.carrier) :
    (a.conj fix).value v = ViewExpr.conjugate β (a.value v) := by
  have key : ∀ (γ : ElemTy) (x : γ.carrier), (γ.arith = true ∨ γ.hasConj = false) →
      ViewExpr.conjugate γ x = x := by
    intro γ x h
    unfold ViewExpr.conjugate
    rw [if_neg]
    rintro ⟨a, b⟩
    rcases h with h | h <;> simp_all
  cases a with
  | conjugated a => simp [Accessor.conj, Accessor.value, conjugate_conjugate]
  | default =>
    simp only [Accessor.conj]
    split_ifs with h1 h2
    · exact (key σ _ (Or.inl (by simp_all))).symm
    · exact (key σ _ (Or.inr (by simp_all))).symm
    · rfl
  | scaled mul s a =>
    simp only [Accessor.conj]
    split_ifs with h1 h2
    · exact (key β _ (Or.inl (by simp_all))).symm
    · exact (key β _ (Or.inr (by simp_all))).symm
    · rfl

theorem Mdspan2.ends_get (A : Mdspan2 σ β) (i j : Nat) (h : Heap σ.carrier) (w : σ.carrier)
    (hi : i < A.map.ext0) (hj : j < A.map.ext1) (hw : h (A.ptr + A.map.offset i j) = some w)
    (Q : β.carrier → Heap σ.carrier → Prop) :
    Ends (A.get i j) h Q ↔ Q (A.acc.value w) h := by
  unfold Mdspan2.get
  rw [if_pos ⟨hi, hj⟩]
  exact Accessor.access_eq _ _ _ _ _ hw _

end

/-! ## C41 -/

/-- Layouts for which `transposed` can be called any number of times. -/
def Layout.Transposable : Layout → Prop
  | .left _ => True
  | .right _ => True
  | .stride _ _ _ => True
  | _ => False

private theorem transposable_step (fix : Bool) (L : Layout) (h : L.Transposable) :
    ∃ M, L.transposed fix = .ok M ∧ M.Transposable ∧ IsTransposeOf M L := by
  have hf : L.transposed fix = L.transposed false := by
    cases fix
    · rfl
    · cases L <;> first | rfl | exact absurd h id
  have : (∃ e, L = .left e) ∨ (∃ e, L = .right e) ∨ (∃ e s0 s1, L = .stride e s0 s1) := by
    cases L <;> first | exact Or.inl ⟨_, rfl⟩ | exact Or.inr (Or.inl ⟨_, rfl⟩) |
      exact Or.inr (Or.inr ⟨_, _, _, rfl⟩) | exact absurd h id
  obtain ⟨M, hM, hT, _⟩ := C38_transposed L (by
    rcases this with h | h | h
    · exact Or.inl h
    · exact Or.inr (Or.inl h)
    · exact Or.inr (Or.inr (Or.inl h)))
  refine ⟨M, hf.trans hM, ?_, hT⟩
  rcases this with ⟨e, rfl⟩ | ⟨e, rfl⟩ | ⟨e, s0, s1, rfl⟩ <;>
    (injection hM with hM; subst hM; trivial)

/-- `V` shows the elements `d` (for `i < m`, `j < n`) in memory `h`, and reading has no effect. -/
def Shows {σ β : ElemTy} (V : Mdspan2 σ β) (h : Heap σ.carrier) (m n : Nat)
    (d : Nat → Nat → β.carrier) : Prop :=
  V.map.ext0 = m ∧ V.map.ext1 = n ∧
  ∀ i j, i < m → j < n → Ends (V.get i j) h fun v h' => v = d i j ∧ h' = h

/-- **C41.**  For every nesting of `scaled`, `conjugated`, `transposed` and
`conjugate_transposed` (any element types, any number of levels, in any configuration of the
library) on a matrix with `layout_left`, `layout_right` or `layout_stride`, the call succeeds
and reading element `(i, j)` of the view gives the element that the nesting denotes for the
matrix that is in memory at that moment; reading changes nothing. -/
theorem C41_views_read_what_they_denote {σ β : ElemTy} (c : Config) (e : ViewExpr σ β)
    (p : Nat) (L : Layout) (hL : L.Transposable) :
    ∃ V, e.build c ⟨p, L, .default⟩ = .ok V ∧
      ∀ (h : Heap σ.carrier) (a : Nat → Nat → σ.carrier), (L.mat p).Holds h a →
        Shows V h (if e.flips then L.ext1 else L.ext0) (if e.flips then L.ext0 else L.ext1)
          (e.denote a) := by
  have main : ∃ V, e.build c ⟨p, L, .default⟩ = .ok V ∧ V.map.Transposable ∧
      V.map.ext0 = (if e.flips then L.ext1 else L.ext0) ∧
      V.map.ext1 = (if e.flips then L.ext0 else L.ext1) ∧
      (∀ i j, i < V.map.ext0 → j < V.map.ext1 → V.ptr + V.map.offset i j =
        p + (if e.flips then L.offset j i else L.offset i j)) ∧
      ∀ (a : Nat → Nat → σ.carrier) i j,
        V.acc.value (if e.flips then a j i else a i j) = e.denote a i j := by
    induction e with
    | base => exact ⟨_, rfl, hL, by simp [ViewExpr.flips, ViewExpr.denote, Accessor.value]⟩
    | scaled mul s v ih =>
      obtain ⟨V, hV, ht, h0, h1, ha, hv⟩ := ih
      refine ⟨V.scaled mul s, by simp [ViewExpr.build, hV, Except.map], ht, h0, h1, ha,
        fun a i j => ?_⟩
      exact congrArg (mul s) (hv a i j)
    | conjugated v ih =>
      obtain ⟨V, hV, ht, h0, h1, ha, hv⟩ := ih
      refine ⟨V.conjugated c, by simp [ViewExpr.build, hV, Except.map], ht, h0, h1, ha,
        fun a i j => ?_⟩
      exact (Accessor.value_conj _ _ _).trans (congrArg (ViewExpr.conjugate _) (hv a i j))
    | transposed v ih =>
      obtain ⟨V, hV, ht, h0, h1, ha, hv⟩ := ih
      obtain ⟨M, hM, hMt, hT⟩ := transposable_step c.fixTransposed V.map ht
      refine ⟨⟨V.ptr, M, V.acc⟩, ?_, hMt, ?_, ?_, fun i j hi hj => ?_, fun a i j => ?_⟩
      · simp [ViewExpr.build, hV, bind, Except.bind, Mdspan2.transposed, hM]
      · simp only [hT.ext0, h1, ViewExpr.flips]; rcases Bool.eq_false_or_eq_true v.flips with hf | hf <;> simp [hf]
      · simp only [hT.ext1, h0, ViewExpr.flips]; rcases Bool.eq_false_or_eq_true v.flips with hf | hf <;> simp [hf]
      · simp only at hi hj
        have e0 := hT.ext0
        have e1 := hT.ext1
        simp only [hT.offset i j hi hj, ViewExpr.flips]
        rw [ha j i (by omega) (by omega)]
        rcases Bool.eq_false_or_eq_true v.flips with hf | hf <;> simp [hf]
      · simp only [ViewExpr.denote, ← hv, ViewExpr.flips]; rcases Bool.eq_false_or_eq_true v.flips with hf | hf <;> simp [hf]
    | conjugateTransposed v ih =>
      obtain ⟨V, hV, ht, h0, h1, ha, hv⟩ := ih
      obtain ⟨M, hM, hMt, hT⟩ := transposable_step c.fixTransposed V.map ht
      refine ⟨(⟨V.ptr, M, V.acc⟩ : Mdspan2 σ _).conjugated c, ?_, hMt, ?_, ?_,
        fun i j hi hj => ?_, fun a i j => ?_⟩
      · simp [ViewExpr.build, hV, bind, Except.bind, Mdspan2.conjugateTransposed,
          Mdspan2.transposed, hM, pure, Except.pure]
      · simp only [Mdspan2.conjugated, hT.ext0, h1, ViewExpr.flips]; rcases Bool.eq_false_or_eq_true v.flips with hf | hf <;> simp [hf]
      · simp only [Mdspan2.conjugated, hT.ext1, h0, ViewExpr.flips]; rcases Bool.eq_false_or_eq_true v.flips with hf | hf <;> simp [hf]
      · simp only [Mdspan2.conjugated] at hi hj ⊢
        have e0 := hT.ext0
        have e1 := hT.ext1
        simp only [hT.offset i j hi hj, ViewExpr.flips]
        rw [ha j i (by omega) (by omega)]
        rcases Bool.eq_false_or_eq_true v.flips with hf | hf <;> simp [hf]
      · simp only [Mdspan2.conjugated, Accessor.value_conj, ViewExpr.denote, ← hv,
          ViewExpr.flips]
        rcases Bool.eq_false_or_eq_true v.flips with hf | hf <;> simp [hf]
  obtain ⟨V, hV, _, h0, h1, ha, hv⟩ := main
  refine ⟨V, hV, fun h a hA => ⟨h0, h1, fun i j hi hj => ?_⟩⟩
  rw [← h0] at hi
  rw [← h1] at hj
  have hw : h (V.ptr + V.map.offset i j) = some (if e.flips then a j i else a i j) := by
    rw [ha i j hi hj]
    rw [h0] at hi
    rw [h1] at hj
    cases hf : e.flips
    · rw [hf] at hi hj
      exact hA i j hi hj trivial
    · rw [hf] at hi hj
      exact hA j i hj hi trivial
  rw [Mdspan2.ends_get V i j h _ hi hj hw]
  exact ⟨hv a i j, rfl⟩

/-- **C41** for a matrix with a user-defined (or any other) layout: nestings that do not
transpose read what they denote. -/
theorem C41_views_any_layout {σ β : ElemTy} (c : Config) (e : ViewExpr σ β) (p : Nat) (L : Layout)
    (hT : e.transposes = 0) :
    ∃ V, e.build c ⟨p, L, .default⟩ = .ok V ∧
      ∀ (h : Heap σ.carrier) (a : Nat → Nat → σ.carrier), (L.mat p).Holds h a →
        Shows V h L.ext0 L.ext1 (e.denote a) := by
  have main : ∃ V, e.build c ⟨p, L, .default⟩ = .ok V ∧ V.map = L ∧ V.ptr = p ∧
      ∀ (a : Nat → Nat → σ.carrier) i j, V.acc.value (a i j) = e.denote a i j := by
    induction e with
    | base => exact ⟨_, rfl, rfl, rfl, fun _ _ _ => rfl⟩
    | scaled mul s v ih =>
      obtain ⟨V, hV, hm, hp, hv⟩ := ih hT
      refine ⟨V.scaled mul s, by simp [ViewExpr.build, hV, Except.map], hm, hp, fun a i j => ?_⟩
      simp [Mdspan2.scaled, Accessor.value, ViewExpr.denote, ← hv]
    | conjugated v ih =>
      obtain ⟨V, hV, hm, hp, hv⟩ := ih hT
      refine ⟨V.conjugated c, by simp [ViewExpr.build, hV, Except.map], hm, hp, fun a i j => ?_⟩
      simp [Mdspan2.conjugated, Accessor.value_conj, ViewExpr.denote, ← hv]
    | transposed v ih => simp [ViewExpr.transposes] at hT
    | conjugateTransposed v ih => simp [ViewExpr.transposes] at hT
  obtain ⟨V, hV, hm, hp, hv⟩ := main
  refine ⟨V, hV, fun h a hA => ⟨by rw [hm], by rw [hm], fun i j hi hj => ?_⟩⟩
  rw [Mdspan2.ends_get V i j h (a i j) (by rw [hm]; exact hi) (by rw [hm]; exact hj)
    (by rw [hm, hp]; exact hA i j hi hj trivial)]
  exact ⟨hv a i j, rfl⟩

/-- **C41**, the second conjugation: `conjugated(conjugated(A))` reads the same as `A` for any
accessor of `A`, cell by cell and in every memory, in every configuration. -/
theorem C41_conjugated_twice {σ β : ElemTy} (c : Config) (A : Mdspan2 σ β) (i j : Nat)
    (h : Heap σ.carrier) (w : σ.carrier) (hi : i < A.map.ext0) (hj : j < A.map.ext1)
    (hw : h (A.ptr + A.map.offset i j) = some w) (Q : β.carrier → Heap σ.carrier → Prop) :
    Ends (((A.conjugated c).conjugated c).get i j) h Q ↔ Ends (A.get i j) h Q := by
  rw [Mdspan2.ends_get A i j h w hi hj hw,
    Mdspan2.ends_get ((A.conjugated c).conjugated c) i j h w hi hj hw]
  simp only [Mdspan2.conjugated, Accessor.value_conj, conjugate_conjugate]

/-- `offset` and `offset_policy` are compatible with `access`, for every nesting. -/
theorem offset_access {σ β : ElemTy} (a : Accessor σ β) (p k i : Nat) :
    a.offsetPolicy.access (a.offset p k) i = a.access p (k + i) := by
  induction a with
  | default => simp [Accessor.offsetPolicy, Accessor.access, Accessor.offset, Nat.add_assoc]
  | scaled mul s a ih => simp only [Accessor.offsetPolicy, Accessor.access, Accessor.offset, ih]
  | conjugated a ih => simp only [Accessor.offsetPolicy, Accessor.access, Accessor.offset, ih]

/-- **C41** for windows: if the window's mapping `m` is that of the rows from `i0` and the columns
from `j0` of `A`, then the window of a view (any nesting of accessors) reads at `(i, j)` what
the view reads at `(i0 + i, j0 + j)`. -/
theorem C41_submdspan {σ β : ElemTy} (A : Mdspan2 σ β) (i0 j0 : Nat) (m : Layout)
    (hm : ∀ i j, i < m.ext0 → j < m.ext1 →
      A.map.offset (i0 + i) (j0 + j) = A.map.offset i0 j0 + m.offset i j)
    (h0 : i0 + m.ext0 ≤ A.map.ext0) (h1 : j0 + m.ext1 ≤ A.map.ext1) (i j : Nat)
    (hi : i < m.ext0) (hj : j < m.ext1) :
    (A.submdspan i0 j0 m).get i j = A.get (i0 + i) (j0 + j) := by
  unfold Mdspan2.get Mdspan2.submdspan
  rw [if_pos ⟨hi, hj⟩, if_pos ⟨by omega, by omega⟩, offset_access, hm i j hi hj]

/-! ### Concrete cases -/

/-- Integers: arithmetic, no `conj`. -/
def intTy : ElemTy := ⟨ℤ, false, true, id, fun _ => rfl⟩
/-- Complex numbers: `conj` found, not arithmetic. -/
noncomputable def complexTy : ElemTy :=
  ⟨ℂ, true, false, fun z => (starRingEnd ℂ) z, fun z => Complex.conj_conj z⟩

/-- `conjugated(scaled(i, transposed(scaled(2.5, A))))` for an integer matrix `A` denotes
`conj(i * 2.5 * A(j,i))`. -/
noncomputable def exampleExpr : ViewExpr intTy complexTy :=
  .conjugated (.scaled (S := ℂ) (β := complexTy) (fun s (x : ℂ) => (s * x : ℂ)) Complex.I
    (.transposed (.scaled (S := ℂ) (β := intTy) (fun s (x : ℤ) => (s * (x : ℂ) : ℂ)) 2.5 .base)))

example (c : Config) : ∃ V, exampleExpr.build c ⟨7, .stride (Exts.of 2 3) 1 4, .default⟩ = .ok V ∧
    Shows V (fun a => if a < 100 then some ((a : ℤ) - 20) else none) 3 2
      fun i j => (starRingEnd ℂ) (Complex.I * (2.5 * (((7 + (j * 1 + i * 4) : ℕ) - 20 : ℤ) : ℂ))) := by
  obtain ⟨V, hV, H⟩ := C41_views_read_what_they_denote c exampleExpr 7
    (.stride (Exts.of 2 3) 1 4) trivial
  refine ⟨V, hV, ?_⟩
  have := H (fun a => if a < 100 then some ((a : ℤ) - 20) else none)
    (fun i j => ((7 + (i * 1 + j * 4) : ℕ) : ℤ) - 20) ?_
  · exact this
  · intro i j hi hj _
    have hi' : i < 2 := hi
    have hj' : j < 3 := hj
    exact if_pos (show 7 + (i * 1 + j * 4) < 100 by omega)

/-- A window of a scaled view. -/
example : ((⟨0, .left (Exts.of 4 4), .scaled (γ := intTy) (fun (s : ℤ) (x : ℤ) => s * x) 3 .default⟩ :
      Mdspan2 intTy intTy).submdspan 1 2 (.stride (Exts.of 2 2) 1 4)).get 1 1 =
    (⟨0, .left (Exts.of 4 4), .scaled (γ := intTy) (fun (s : ℤ) (x : ℤ) => s * x) 3 .default⟩ :
      Mdspan2 intTy intTy).get 2 3 :=
  C41_submdspan _ 1 2 (.stride (Exts.of 2 2) 1 4)
    (fun i j _ _ => by simp [Layout.offset, Exts.of, Exts.e0]; ring) (by decide) (by decide) 1 1
    (by decide) (by decide)

/-- `scaled(3, A)` for a matrix in the layout of the BLAS. -/
example (c : Config) : ∃ V, (ViewExpr.scaled (σ := intTy) (β := intTy) (γ := intTy)
      (fun (s : ℤ) (x : ℤ) => (s * x : ℤ)) 3 .base).build c
        ⟨7, .blasGeneral .columnMajor (Exts.of 3 2) 5, .default⟩ = .ok V ∧
    ∀ (h : Heap ℤ) (a : Nat → Nat → ℤ), ((Layout.blasGeneral .columnMajor (Exts.of 3 2) 5).mat 7).Holds h a →
      Shows V h 3 2 fun i j => 3 * a i j :=
  C41_views_any_layout c _ 7 (.blasGeneral .columnMajor (Exts.of 3 2) 5) rfl

example (c : Config) : let A : Mdspan2 complexTy complexTy := ⟨0, .left (Exts.of 4 4), .default⟩
    Ends (((A.conjugated c).conjugated c).get 1 2) (fun _ => some Complex.I)
      fun v _ => v = Complex.I := by
  intro A
  rw [C41_conjugated_twice c A 1 2 _ Complex.I (by decide) (by decide) rfl]
  exact ⟨_, _, rfl, rfl⟩

end StdBLAS

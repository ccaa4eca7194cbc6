import Verif.Lemmas.ConjugateGradients
import Verif.Props.Cholesky
import Verif.Props.Blas1Elementwise
import Verif.Props.Blas1Reductions
import Verif.Props.Blas2Products

/-!
# Property C75: the method of conjugate gradients
-/

namespace StdBLAS
open Finset Witness

/-- The arguments: all vectors have the size of the matrix, the ones that are written are unique, and
nothing overlaps. -/
structure CGArgs (A : Mat) (t : Triangle) (b x r p q : Vec) (n : Nat) : Prop where
  rows : A.rows = n
  cols : A.cols = n
  eb : b.ext = n
  ex : x.ext = n
  er : r.ext = n
  ep : p.ext = n
  eq : q.ext = n
  ux : x.Unique
  ur : r.Unique
  up : p.Unique
  uq : q.Unique
  Ax : Apart (A.CellOn t.region) x.Cell
  Ar : Apart (A.CellOn t.region) r.Cell
  Ap : Apart (A.CellOn t.region) p.Cell
  Aq : Apart (A.CellOn t.region) q.Cell
  br : Apart b.Cell r.Cell
  bq : Apart b.Cell q.Cell
  xr : Apart x.Cell r.Cell
  xp : Apart x.Cell p.Cell
  xq : Apart x.Cell q.Cell
  rp : Apart r.Cell p.Cell
  rq : Apart r.Cell q.Cell
  pq : Apart p.Cell q.Cell

theorem Apart.symm {P Q : Nat → Prop} (h : Apart P Q) : Apart Q P := fun a hq hp => h a hp hq

theorem Apart.aligned {x z : Vec} (h : Apart x.Cell z.Cell) : x.Aligned z :=
  fun i k hi hk e => (h _ ⟨i, hi, rfl⟩ ⟨k, hk, e.symm⟩).elim

theorem Vec.Unique.aligned {z : Vec} (h : z.Unique) : z.Aligned z := h

theorem Vec.Holds.kept {x : Vec} {h h' : Heap ℝ} {f : Nat → ℝ} {P : Nat → Prop} (hx : x.Holds h f)
    (ha : Apart x.Cell P) (hc : OnlyChanges P h h') : x.Holds h' f := fun i hi => by
  rw [hc _ (ha _ ⟨i, hi, rfl⟩)]; exact hx i hi

theorem Vec.Holds.scaledView {x : Vec} {h : Heap ℝ} {f : Nat → ℝ} (hx : x.Holds h f) (c : ℝ) :
    (x.view.scaled c).Holds h fun i => c * f i := fun i hi => ⟨_, hx i hi, rfl⟩

theorem Vec.Alloc.kept {x : Vec} {h h' : Heap ℝ} {P : Nat → Prop} (hx : x.Alloc h)
    (ha : Apart x.Cell P) (hc : OnlyChanges P h h') : x.Alloc h' := fun i hi => by
  rw [hc _ (ha _ ⟨i, hi, rfl⟩)]; exact hx i hi

/-- What is in memory between the steps. -/
structure CGMem (A : Mat) (t : Triangle) (a : Nat → Nat → ℝ) (x r p q : Vec) (c : CGState)
    (h : Heap ℝ) : Prop where
  hA : A.HoldsOn h t.region a
  hx : x.Holds h c.x
  hr : r.Holds h c.r
  hp : p.Holds h c.p
  hq : q.Alloc h

theorem cgStep_ends {A : Mat} {t : Triangle} {b x r p q : Vec} {n : Nat} (H : CGArgs A t b x r p q n)
    {a : Nat → Nat → ℝ} {c : CGState} {h : Heap ℝ} (M : CGMem A t a x r p q c h) :
    Ends (cgStep A t x r p q) h fun _ h' => CGMem A t a x r p q (c.next n (symOf t a)) h' ∧
      OnlyChanges (fun w => x.Cell w ∨ r.Cell w ∨ p.Cell w ∨ q.Cell w) h h' := by
  unfold cgStep
  rw [ends_bind]
  refine (C01_dot r.view r.view 0 h c.r c.r M.hr.asView M.hr.asView le_rfl).mono ?_
  rintro rr h' ⟨err, e0⟩
  rw [e0]
  clear e0
  have err' : rr = ipN n c.r c.r := by
    rw [err, zero_add]; unfold ipN; rw [← H.er]; rfl
  clear err
  subst err'
  unfold CGState.next
  split
  · exact ends_pure.2 ⟨M, fun _ _ => rfl⟩
  · rw [ends_bind]
    refine (C17_symv A.view t p.view q h a c.p (fun i j hi hj hij => ⟨_, M.hA i j hi hj hij, rfl⟩)
      M.hp.asView M.hq (H.rows.trans H.cols.symm) (H.rows.trans H.eq.symm) (H.cols.trans H.ep.symm).le
      H.uq H.Aq H.pq).mono ?_
    rintro _ h1 ⟨hq1, hc1⟩
    have cA1 : A.HoldsOn h1 t.region a := fun i j hi hj hij => by
      rw [hc1 _ (H.Aq _ ⟨i, j, hi, hj, hij, rfl⟩)]; exact M.hA i j hi hj hij
    have hx1 := M.hx.kept H.xq hc1
    have hr1 := M.hr.kept H.rq hc1
    have hp1 := M.hp.kept H.pq hc1
    change q.Holds h1 (mulVec A.cols (symOf t a) c.p) at hq1
    rw [H.cols] at hq1
    rw [ends_bind]
    refine (C01_dot p.view q.view 0 h1 c.p _ hp1.asView hq1.asView (H.ep.trans H.eq.symm).le).mono ?_
    rintro pq h1' ⟨epq, e0⟩
    rw [e0]
    clear e0
    have epq' : pq = ipN n c.p (mulVec n (symOf t a) c.p) := by
      rw [epq, zero_add]; unfold ipN; rw [← H.ep]; rfl
    clear epq
    subst epq'
    rw [ends_bind]
    refine (C12_add_vector x.view (p.view.scaled _) x h1 _ _ hx1.asView (hp1.scaledView _) hx1.alloc
      le_rfl (H.ex.trans H.ep.symm).le H.ux H.ux H.xp.symm.aligned).mono ?_
    rintro _ h2 ⟨hx2, hc2⟩
    have hr2 := hr1.kept H.xr.symm hc2
    have hp2 := hp1.kept H.xp.symm hc2
    have hq2 := hq1.kept H.xq.symm hc2
    rw [ends_bind]
    refine (C12_add_vector r.view (q.view.scaled _) r h2 _ _ hr2.asView (hq2.scaledView _) hr2.alloc
      le_rfl (H.er.trans H.eq.symm).le H.ur H.ur H.rq.symm.aligned).mono ?_
    rintro _ h3 ⟨hr3, hc3⟩
    have hx3 := hx2.kept H.xr hc3
    have hp3 := hp2.kept H.rp.symm hc3
    have hq3 := hq2.kept H.rq.symm hc3
    rw [ends_bind]
    refine (C01_dot r.view r.view 0 h3 _ _ hr3.asView hr3.asView le_rfl).mono ?_
    rintro rr' h3' ⟨err, e0⟩
    rw [e0]
    clear e0
    have err' : rr' = ipN n (c.res n (symOf t a)) (c.res n (symOf t a)) := by
      rw [err, zero_add]; unfold ipN; rw [← H.er]; rfl
    clear err
    subst err'
    refine (C12_add_vector r.view (p.view.scaled _) p h3 _ _ hr3.asView (hp3.scaledView _) hp3.alloc
      (H.ep.trans H.er.symm).le le_rfl H.up H.rp.aligned H.up).mono ?_
    rintro _ h4 ⟨hp4, hc4⟩
    refine ⟨⟨fun i j hi hj hij => ?_, hx3.kept H.xp hc4, hr3.kept H.rp hc4, hp4,
      (hq3.kept H.pq.symm hc4).alloc⟩, fun w hw => ?_⟩
    · rw [hc4 _ (H.Ap _ ⟨i, j, hi, hj, hij, rfl⟩), hc3 _ (H.Ar _ ⟨i, j, hi, hj, hij, rfl⟩),
        hc2 _ (H.Ax _ ⟨i, j, hi, hj, hij, rfl⟩)]
      exact cA1 i j hi hj hij
    · rw [hc4 w fun e => hw (.inr (.inr (.inl e))), hc3 w fun e => hw (.inr (.inl e)),
        hc2 w fun e => hw (.inl e), hc1 w fun e => hw (.inr (.inr (.inr e)))]

theorem conjugateGradients_ends {A : Mat} {t : Triangle} {b x r p q : Vec} {n : Nat}
    (H : CGArgs A t b x r p q n) {a : Nat → Nat → ℝ} {g v0 : Nat → ℝ} {h : Heap ℝ}
    (hA : A.HoldsOn h t.region a) (hb : b.Holds h g) (hx : x.Holds h v0) (hr : r.Alloc h)
    (hp : p.Alloc h) (hq : q.Alloc h) (steps : Nat) :
    Ends (conjugateGradients A t b x r p q steps) h fun _ h' => ∃ c : CGState,
      (∀ i, c.r i = g i + -1 * mulVec n (symOf t a) v0 i) ∧ c.p = c.r ∧ c.x = v0 ∧
      CGMem A t a x r p q (c.steps n (symOf t a) steps) h' ∧
      OnlyChanges (fun w => x.Cell w ∨ r.Cell w ∨ p.Cell w ∨ q.Cell w) h h' := by
  unfold conjugateGradients
  rw [ends_bind]
  refine (C17_symv A.view t x.view q h a v0 (fun i j hi hj hij => ⟨_, hA i j hi hj hij, rfl⟩)
    hx.asView hq (H.rows.trans H.cols.symm) (H.rows.trans H.eq.symm) (H.cols.trans H.ex.symm).le
    H.uq H.Aq H.xq).mono ?_
  rintro _ h1 ⟨hq1, hc1⟩
  change q.Holds h1 (mulVec A.cols (symOf t a) v0) at hq1
  rw [H.cols] at hq1
  have hx1 := hx.kept H.xq hc1
  have hb1 := hb.kept H.bq hc1
  rw [ends_bind]
  refine (C12_add_vector b.view (q.view.scaled _) r h1 _ _ hb1.asView (hq1.scaledView _)
    (hr.kept H.rq hc1) (H.er.trans H.eb.symm).le (H.er.trans H.eq.symm).le H.ur H.br.aligned
    H.rq.symm.aligned).mono ?_
  rintro _ h2 ⟨hr2, hc2⟩
  have hx2 := hx1.kept H.xr hc2
  have hq2 := hq1.kept H.rq.symm hc2
  rw [ends_bind]
  refine (C09_copy_vector r.view p h2 _ hr2.asView ((hp.kept H.pq hc1).kept H.rp.symm hc2)
    (H.ep.trans H.er.symm).le H.up H.rp.aligned).mono ?_
  rintro _ h3 ⟨hp3, hc3⟩
  have hx3 := hx2.kept H.xp hc3
  have hr3 := hr2.kept H.rp hc3
  have hq3 := hq2.kept H.pq.symm hc3
  have hch : OnlyChanges (fun w => x.Cell w ∨ r.Cell w ∨ p.Cell w ∨ q.Cell w) h h3 := fun w hw => by
    rw [hc3 w fun e => hw (.inr (.inr (.inl e))), hc2 w fun e => hw (.inr (.inl e)),
      hc1 w fun e => hw (.inr (.inr (.inr e)))]
  have hA3 : A.HoldsOn h3 t.region a := fun i j hi hj hij => by
    rw [hc3 _ (H.Ap _ ⟨i, j, hi, hj, hij, rfl⟩), hc2 _ (H.Ar _ ⟨i, j, hi, hj, hij, rfl⟩),
      hc1 _ (H.Aq _ ⟨i, j, hi, hj, hij, rfl⟩)]
    exact hA i j hi hj hij
  let c : CGState := ⟨v0, fun i => g i + -1 * mulVec n (symOf t a) v0 i,
    fun i => g i + -1 * mulVec n (symOf t a) v0 i⟩
  refine (ends_forUp_inv (fun k h' => CGMem A t a x r p q (c.steps n (symOf t a) k) h' ∧
    OnlyChanges (fun w => x.Cell w ∨ r.Cell w ∨ p.Cell w ∨ q.Cell w) h h') (Nat.zero_le steps)
    ?_ ⟨⟨hA3, hx3, hr3, hp3, hq3.alloc⟩, hch⟩).mono ?_
  · rintro k - - h' ⟨M, hh⟩
    refine (cgStep_ends H M).mono ?_
    rintro _ h'' ⟨M', hh'⟩
    exact ⟨M', fun w hw => (hh' w hw).trans (hh w hw)⟩
  · rintro _ h' ⟨M, hh⟩
    exact ⟨c, fun _ => rfl, rfl, rfl, M, hh⟩

/-- **C75** The method of conjugate gradients (`symmetric_matrix_vector_product` with one triangle,
`dot`, `add` with `scaled`, `copy`) solves every positive definite system of size `n` in at most `n`
steps, from every first approximation.  Only the vectors `x`, `r`, `p`, `q` change. -/
theorem C75_conjugate_gradients {A : Mat} {t : Triangle} {b x r p q : Vec} {n : Nat}
    (H : CGArgs A t b x r p q n) (h : Heap ℝ) (a : Nat → Nat → ℝ) (g v0 : Nat → ℝ)
    (hA : A.HoldsOn h t.region a) (hb : b.Holds h g) (hx : x.Holds h v0) (hr : r.Alloc h)
    (hp : p.Alloc h) (hq : q.Alloc h)
    (hpd : ∀ w : Nat → ℝ, (∃ i, i < n ∧ w i ≠ 0) →
      0 < ∑ i ∈ range n, ∑ j ∈ range n, symOf t a i j * w i * w j)
    (steps : Nat) (hsteps : n ≤ steps) :
    Ends (conjugateGradients A t b x r p q steps) h fun _ h' => ∃ v, x.Holds h' v ∧
      (∀ i, i < n → ∑ j ∈ range n, symOf t a i j * v j = g i) ∧
      OnlyChanges (fun w => x.Cell w ∨ r.Cell w ∨ p.Cell w ∨ q.Cell w) h h' := by
  refine (conjugateGradients_ends H hA hb hx hr hp hq steps).mono ?_
  rintro _ h' ⟨c, e1, e2, e3, M, hch⟩
  refine ⟨_, M.hx, fun i hi => ?_, hch⟩
  have hs : ∀ i j, i < n → j < n → symOf t a i j = symOf t a j i := fun i j _ _ => symOf_comm t a i j
  have hz := ipN_self_eq_zero (CGState.steps_solved (c := c) hs hpd (fun i _ => by rw [e2]) hsteps) i hi
  have hres := CGState.steps_residual (c := c) (g := g) (s := symOf t a)
    (fun i _ => by rw [e1, e3]; ring1) steps i hi
  rw [hz] at hres
  exact (sub_eq_zero.1 hres.symm).symm

/-- **C75** After any number of steps, for any symmetric matrix, `r` is the residual of `x`. -/
theorem C75_conjugate_gradients_residual {A : Mat} {t : Triangle} {b x r p q : Vec} {n : Nat}
    (H : CGArgs A t b x r p q n) (h : Heap ℝ) (a : Nat → Nat → ℝ) (g v0 : Nat → ℝ)
    (hA : A.HoldsOn h t.region a) (hb : b.Holds h g) (hx : x.Holds h v0) (hr : r.Alloc h)
    (hp : p.Alloc h) (hq : q.Alloc h) (steps : Nat) :
    Ends (conjugateGradients A t b x r p q steps) h fun _ h' => ∃ v, x.Holds h' v ∧
      r.Holds h' fun i => g i - ∑ j ∈ range n, symOf t a i j * v j := by
  refine (conjugateGradients_ends H hA hb hx hr hp hq steps).mono ?_
  rintro _ h' ⟨c, e1, e2, e3, M, hch⟩
  refine ⟨_, M.hx, fun i hi => ?_⟩
  rw [M.hr i hi, CGState.steps_residual (c := c) (g := g) (s := symOf t a)
    (fun i _ => by rw [e1, e3]; ring1) steps i (H.er ▸ hi)]
  rfl

private theorem cg_args : CGArgs (A.block 0 0 2 2) .lower (x.slice 0 2) (y.slice 0 2)
    ⟨2, fun i => 40 + i⟩ ⟨2, fun i => 50 + i⟩ ⟨2, fun i => 60 + i⟩ 2 := by
  constructor
  all_goals first
  | rfl
  | (intro i k hi hk e; simp only [y, Vec.slice] at *; omega)
  | (rintro a ⟨i, j, hi, hj, -, e⟩ ⟨k, hk, e'⟩; simp only [A, y, Vec.slice, Mat.block] at *; omega)
  | (rintro a ⟨i, hi, e⟩ ⟨k, hk, e'⟩; simp only [x, Vec.slice] at *; omega)

/-- The positive definite matrix of `block_posdef`, a right-hand side in cells 0 and 1, an
approximation in cells 10 and 12. -/
example : Ends (conjugateGradients (A.block 0 0 2 2) .lower (x.slice 0 2) (y.slice 0 2)
    ⟨2, fun i => 40 + i⟩ ⟨2, fun i => 50 + i⟩ ⟨2, fun i => 60 + i⟩ 2) (heap ℝ) fun _ h' =>
    ∃ v, (y.slice 0 2).Holds h' v ∧
      (∀ i, i < 2 → ∑ j ∈ range 2, symOf .lower (mvals ℝ (A.block 0 0 2 2)) i j * v j =
        vals ℝ (x.slice 0 2) i) ∧
      OnlyChanges (fun w => (y.slice 0 2).Cell w ∨ (⟨2, fun i => 40 + i⟩ : Vec).Cell w ∨
        (⟨2, fun i => 50 + i⟩ : Vec).Cell w ∨ (⟨2, fun i => 60 + i⟩ : Vec).Cell w) (heap ℝ) h' :=
  C75_conjugate_gradients cg_args _ _ _ _
    (mholds fun i j hi hj => by simp only [A, Mat.block] at *; omega)
    (holds fun i hi => by simp only [x, Vec.slice] at *; omega)
    (holds fun i hi => by simp only [y, Vec.slice] at *; omega)
    (alloc fun i hi => by simp only at *; omega) (alloc fun i hi => by simp only at *; omega)
    (alloc fun i hi => by simp only at *; omega) block_posdef 2 le_rfl

end StdBLAS

import Verif.Lemmas.CholeskyRounding
import Verif.Props.BackwardStable
import Verif.Spec.RoundingReal

/-!
# Property C78: solving positive definite systems in rounded arithmetic is backward stable

The Cholesky solver `posvF` (`Spec/Clients.lean`: `scale`, `symmetric_matrix_rank_1_update` and two
triangular solves) in an arithmetic with relative error `u` per operation, square root included.
-/

namespace StdBLAS
open Finset Witness
variable {F : Type} [Zero F] [One F] [Add F] [Sub F] [Mul F] [Div F] [FloatOps F]

/-- Invariant rule for ascending loops with a local variable. -/
theorem ends_foldEach_range {α σ : Type} {body : σ → Nat → Prog α σ} (I : Nat → σ → Heap α → Prop)
    (n : Nat) {m : Nat} {s : σ} {h : Heap α}
    (hbody : ∀ k, k < m + n → ∀ s h, I k s h → Ends (body s k) h (I (k + 1))) (h0 : I m s h) :
    Ends (foldEach (List.range' m n) s body) h (I (m + n)) := by
  induction n generalizing m s h with
  | zero => simpa [foldEach] using h0
  | succ n ih =>
    rw [List.range'_succ]
    change Ends (body s m >>= fun s' => foldEach (List.range' (m + 1) n) s' body) h _
    rw [ends_bind]
    refine (hbody m (by omega) s h h0).mono fun s' h' q => ?_
    have := ih (m := m + 1) (fun k hk => hbody k (by omega)) q
    rwa [show m + 1 + n = m + (n + 1) by omega] at this

/-- A step of the factorisation met a pivot that is not positive. -/
def BrokenDown (val : F → ℝ) (ρ : ℝ) (n : Nat) (a : Nat → Nat → F) : Prop :=
  ∃ k s, k < n ∧ (∀ m, m < k → 0 < val (s m m)) ∧ NearCholesky val ρ n a s k ∧ val (s k k) ≤ 0

/-- The invariant of the factorisation. -/
theorem ends_potrfF (val : F → ℝ) (u : ℝ) (R : RoundedReal val u) (hu1 : u < 1) (minusOne : F)
    (hmo : val minusOne = -1) (A : Mat) (n : Nat) (h : Heap F) (a : Nat → Nat → F)
    (hA : A.HoldsOn h Triangle.lower.region a) (hr : A.rows = n) (hc : A.cols = n)
    (hu : A.UniqueOn Triangle.lower.region) :
    Ends (potrfF 1 minusOne FloatOps.sqrt (FloatOps.lt 0) A n) h fun ok h' => ∃ s,
      A.BecomesOn h h' Triangle.lower.region s ∧
      (ok = true → (∀ k, k < n → 0 < val (s k k)) ∧ NearCholesky val (growth u) n a s n) ∧
      (ok = false → BrokenDown val (growth u) n a) := by
  have := ends_foldEach_range (fun k (ok : Bool) h' => ∃ s,
      A.BecomesOn h h' Triangle.lower.region s ∧
      (ok = true → (∀ m, m < k → 0 < val (s m m)) ∧ NearCholesky val (growth u) n a s k) ∧
      (ok = false → BrokenDown val (growth u) n a)) n (m := 0)
    (s := true) (h := h) (body := fun ok k =>
    if ok then do
      let p ← A.get k k
      if FloatOps.lt 0 p then do
        A.set k k (FloatOps.sqrt p)
        scale1 (1 / FloatOps.sqrt p) (A.colPart k (k + 1) (n - (k + 1)))
        syrAlpha minusOne (A.colPart k (k + 1) (n - (k + 1))).view
          (A.block (k + 1) (k + 1) (n - (k + 1)) (n - (k + 1))) .lower
        pure true
      else pure false
    else pure false) ?_ ?_
  · rw [Nat.zero_add] at this
    exact this
  · rintro k hk ok h1 ⟨s, ⟨hA1, hch1⟩, hI, hF⟩
    rw [Nat.zero_add] at hk
    cases ok with
    | false => exact ends_pure.2 ⟨s, ⟨hA1, hch1⟩, fun q => (by cases q), fun _ => hF rfl⟩
    | true =>
      obtain ⟨hd, hN⟩ := hI rfl
      have H := ends_cholStepF (one := (1 : F)) (minusOne := minusOne) (root := FloatOps.sqrt)
        hA1 hr hc hu hk
      rw [ends_bind, ends_mat_get] at H
      obtain ⟨-, p, hp, H⟩ := H
      have hkk := hA1 k k (by omega) (by omega) (show k ≤ k from le_rfl)
      obtain rfl : p = s k k := Option.some.inj (hp.symm.trans hkk)
      rw [if_pos rfl, ends_bind, ends_mat_get]
      refine ⟨⟨by omega, by omega⟩, s k k, hkk, ?_⟩
      by_cases hpos : FloatOps.lt 0 (s k k) = true
      · rw [if_pos hpos, ends_bind]
        rw [ends_bind] at H
        refine H.mono fun _ h2 H => ?_
        rw [ends_bind] at H ⊢
        refine H.mono fun _ h3 H => ?_
        rw [ends_bind]
        refine H.mono fun _ h4 ⟨hA4, hch4⟩ => ends_pure.2 ⟨_, ⟨hA4, hch1.trans' hch4⟩, fun _ => ?_,
          fun q => by cases q⟩
        have hp0 : 0 < val (s k k) := by
          have := (R.lt _ _).1 hpos
          rwa [R.zero] at this
        obtain ⟨δ, hδ, e⟩ := R.sqrt (s k k) hp0.le
        refine ⟨fun m hm => ?_, hN.step R.toRounded hu1 R.one hmo hδ e hp0⟩
        unfold cholStepF
        by_cases q : m = k
        · rw [if_pos ⟨q, q⟩, e]
          have := abs_le.1 hδ
          exact mul_pos (Real.sqrt_pos.2 hp0) (by linarith)
        · rw [if_neg (by omega), if_neg (by omega), if_neg (by omega)]
          exact hd m (by omega)
      · rw [if_neg hpos]
        refine ends_pure.2 ⟨s, ⟨hA1, hch1⟩, fun q => (by cases q), fun _ => ⟨k, s, hk, hd, hN, ?_⟩⟩
        by_contra q
        refine hpos ((R.lt _ _).2 ?_)
        rw [R.zero]
        exact not_le.1 q
  · refine ⟨a, ⟨hA, fun _ _ => rfl⟩, fun _ => ⟨fun m hm => absurd hm (Nat.not_lt_zero m),
      fun i j _ _ => ⟨fun _ => 1, 1, fun m hm => absurd hm (Nat.not_lt_zero m), ?_, ?_⟩⟩,
      fun q => by cases q⟩
    · rw [pow_zero]; exact near_one
    · rw [range_zero, sum_empty, if_pos (Nat.zero_le _), zero_add, mul_one]

/-- **C78** Cholesky factorisation.  Only the lower triangle of the array is read and written.  If every
pivot was positive, the product `L Lᵀ` of the factor is the matrix up to `((1+u)/(1-u))^(n+1) - 1` times the
product of the magnitudes. -/
theorem C78_potrf (val : F → ℝ) (u : ℝ) (R : RoundedReal val u) (hu1 : u < 1) (minusOne : F)
    (hmo : val minusOne = -1) (A : Mat) (n : Nat) (h : Heap F) (a : Nat → Nat → F)
    (hA : A.HoldsOn h Triangle.lower.region a) (hr : A.rows = n) (hc : A.cols = n)
    (hu : A.UniqueOn Triangle.lower.region) :
    Ends (potrfF 1 minusOne FloatOps.sqrt (FloatOps.lt 0) A n) h fun ok h' => ∃ s,
      A.BecomesOn h h' Triangle.lower.region s ∧
      (ok = true → (∀ k, k < n → 0 < val (s k k)) ∧ ∀ i j, i < n → j < n →
        |symOf .lower (fun i j => val (a i j)) i j - ∑ m ∈ range n,
          triOf .lower .explicit (fun i j => val (s i j)) i m *
            triOf .lower .explicit (fun i j => val (s i j)) j m| ≤
        (((1 + u) / (1 - u)) ^ (n + 1) - 1) * ∑ m ∈ range n,
          |triOf .lower .explicit (fun i j => val (s i j)) i m| *
            |triOf .lower .explicit (fun i j => val (s i j)) j m|) := by
  refine (ends_potrfF val u R hu1 minusOne hmo A n h a hA hr hc hu).mono ?_
  rintro ok h' ⟨s, hs, hE, -⟩
  refine ⟨s, hs, fun e => ⟨(hE e).1, fun i j hi hj => ?_⟩⟩
  exact (hE e).2.error (growth_facts R.nonneg hu1).1 hi hj

/-- **C78** The factorisation succeeds, in rounded arithmetic too, if the matrix is positive definite with
some margin: its form, with the diagonal scaled to one, is at least
`n (((1+u)/(1-u))^(n+1) - 1) / (2 - ((1+u)/(1-u))^(n+1))` on unit vectors.  (With `u = 0`: if the matrix is
positive definite.) -/
theorem C78_potrf_succeeds (val : F → ℝ) (u : ℝ) (R : RoundedReal val u) (hu1 : u < 1) (minusOne : F)
    (hmo : val minusOne = -1) (A : Mat) (n : Nat) (h : Heap F) (a : Nat → Nat → F)
    (hA : A.HoldsOn h Triangle.lower.region a) (hr : A.rows = n) (hc : A.cols = n)
    (hu : A.UniqueOn Triangle.lower.region)
    (hn : n * (((1 + u) / (1 - u)) ^ (n + 1) - 1) < 2 - ((1 + u) / (1 - u)) ^ (n + 1))
    (hpd : ∀ w : Nat → ℝ, (∃ i, i < n ∧ w i ≠ 0) →
      n * (((1 + u) / (1 - u)) ^ (n + 1) - 1) * ∑ i ∈ range n, val (a i i) * w i ^ 2 <
      (2 - ((1 + u) / (1 - u)) ^ (n + 1)) * ∑ i ∈ range n, ∑ j ∈ range n,
        symOf .lower (fun i j => val (a i j)) i j * w i * w j) :
    Ends (potrfF 1 minusOne FloatOps.sqrt (FloatOps.lt 0) A n) h fun ok _ => ok = true := by
  refine (ends_potrfF val u R hu1 minusOne hmo A n h a hA hr hc hu).mono ?_
  rintro ok h' ⟨s, -, -, hF⟩
  cases ok with
  | true => rfl
  | false =>
    exfalso
    obtain ⟨k, s, hk, hd, hN, hs⟩ := hF rfl
    exact hN.no_breakdown (growth_facts R.nonneg hu1).1 hk hd hs hn hpd

/-- **C78** The solver for positive definite systems: what it returns (if every pivot was positive) is the
exact solution of a system with the given right-hand side and a matrix that differs from the given one,
element by element, by at most `((1+u)/(1-u))^(3n+1) - 1` times the product of the magnitudes of the
computed factor; and if `((1+u)/(1-u))^(n+1) < 2`, by at most a bound in terms of the diagonal of the given
matrix: the solver is backward stable without any assumption about growth. -/
theorem C78_posv (val : F → ℝ) (u : ℝ) (R : RoundedReal val u) (hu1 : u < 1) (minusOne : F)
    (hmo : val minusOne = -1) (A : Mat) (b : Vec) (n : Nat) (h : Heap F) (a : Nat → Nat → F)
    (g : Nat → F) (hA : A.HoldsOn h Triangle.lower.region a) (hb : b.Holds h g) (hr : A.rows = n)
    (hc : A.cols = n) (hbe : b.ext = n) (hu : A.UniqueOn Triangle.lower.region) (hub : b.Unique)
    (hAb : Apart (A.CellOn Triangle.lower.region) b.Cell) :
    Ends (posvF 1 minusOne FloatOps.sqrt (FloatOps.lt 0) A b n) h fun ok h' =>
      OnlyChanges (fun p => A.CellOn Triangle.lower.region p ∨ b.Cell p) h h' ∧
      (ok = true → ∃ s v, A.HoldsOn h' Triangle.lower.region s ∧ b.Holds h' v ∧
        ∃ p : Nat → Nat → ℝ,
          (∀ i, i < n → ∑ j ∈ range n, p i j * val (v j) = val (g i)) ∧
          (∀ i j, i < n → j < n →
            |p i j - symOf .lower (fun i j => val (a i j)) i j| ≤
              (((1 + u) / (1 - u)) ^ (3 * n + 1) - 1) * ∑ m ∈ range n,
                |triOf .lower .explicit (fun i j => val (s i j)) i m| *
                  |triOf .lower .explicit (fun i j => val (s i j)) j m|) ∧
          (((1 + u) / (1 - u)) ^ (n + 1) < 2 → ∀ i j, i < n → j < n →
            |p i j - symOf .lower (fun i j => val (a i j)) i j| ≤
              (((1 + u) / (1 - u)) ^ (3 * n + 1) - 1) / (2 - ((1 + u) / (1 - u)) ^ (n + 1)) *
                (Real.sqrt (val (a i i)) * Real.sqrt (val (a j j))))) := by
  unfold posvF
  rw [ends_bind]
  refine (ends_potrfF val u R hu1 minusOne hmo A n h a hA hr hc hu).mono ?_
  rintro ok h1 ⟨s, ⟨hA1, hch⟩, hE, -⟩
  cases ok with
  | false => exact ends_pure.2 ⟨hch.mono fun _ => Or.inl, fun q => by cases q⟩
  | true =>
  obtain ⟨hd, hN⟩ := hE rfl
  have hb1 : b.Holds h1 g := fun i hi => by
    rw [hch _ fun q => hAb _ q ⟨i, hi, rfl⟩, hb i hi]
  have hAon : ∀ {h0 : Heap F}, A.HoldsOn h0 Triangle.lower.region s →
      (A.view : MatV F).HoldsOn h0 (triRegion .lower .explicit) s :=
    fun hw i j hi hj hij => ⟨_, hw i j hi hj hij.1, rfl⟩
  have hap : Apart ((A.view : MatV F).toMat.CellOn (triRegion .lower .explicit)) b.Cell := by
    rintro p ⟨i, j, hi, hj, hij, e⟩ hp
    exact hAb p ⟨i, j, hi, hj, hij.1, e⟩ hp
  have hal : b.Aligned b := fun i k hi hk e => hub i k hi hk e
  rw [if_pos rfl, ends_bind]
  refine (trsv_fold (· / ·) (t := .lower) (d := .explicit) (hAon hA1) hb1.asView hb1.alloc
    (hr.trans hc.symm) (hr.trans hbe.symm) (le_of_eq (hr.trans hbe.symm)) hub hap hal).mono ?_
  rintro _ h2 ⟨y, hy, hys⟩
  have hA2 : A.HoldsOn h2 Triangle.lower.region s := fun i j hi hj hij => by
    rw [hy.2 _ fun q => hAb _ ⟨i, j, hi, hj, hij, rfl⟩ q, hA1 i j hi hj hij]
  rw [ends_bind]
  refine (trsv_fold (· / ·) (t := .upper) (d := .explicit) (hAon hA2).transposed hy.1.asView
    hy.1.alloc (hc.trans hr.symm) (hc.trans hbe.symm) (le_of_eq (hc.trans hbe.symm)) hub
    (transposed_apart_tri hap) hal).mono ?_
  rintro _ h3 ⟨v, hv, hvs⟩
  have hA3 : A.HoldsOn h3 Triangle.lower.region s := fun i j hi hj hij => by
    rw [hv.2 _ fun q => hAb _ ⟨i, j, hi, hj, hij, rfl⟩ q, hA2 i j hi hj hij]
  refine ends_pure.2 ⟨(hch.mono fun _ => Or.inl).trans' ((hy.2.trans' hv.2).mono fun _ => Or.inr),
    fun _ => ⟨s, v, hA3, hv.1, ?_⟩⟩
  have hr' : (A.view : MatV F).rows = n := hr
  have hc' : (A.view : MatV F).cols = n := hc
  have hr2 : (A.view : MatV F).transposed.rows = n := hc
  have hc2 : (A.view : MatV F).transposed.cols = n := hr
  rw [hr', hc'] at hys
  rw [hr2, hc2] at hvs
  choose p hp using fun i : Fin n => R.toRounded.subRow_backward hu1 (t := .lower) (d := .explicit)
    (a := s) (g := g) (v := y) i.2 (fun _ => (hd i i.2).ne') (hys i i.2)
  choose q hq using fun i : Fin n => R.toRounded.subRow_backward hu1 (t := .upper) (d := .explicit)
    (a := fun i j => s j i) (g := y) (v := v) i.2 (fun _ => (hd i i.2).ne') (hvs i i.2)
  let p' : Nat → Nat → ℝ := fun i j => if hi : i < n then p ⟨i, hi⟩ j else 0
  let q' : Nat → Nat → ℝ := fun i j => if hi : i < n then q ⟨i, hi⟩ j else 0
  have ep : ∀ i (hi : i < n), p' i = p ⟨i, hi⟩ := fun i hi => by funext j; exact dif_pos hi
  have eq' : ∀ i (hi : i < n), q' i = q ⟨i, hi⟩ := fun i hi => by funext j; exact dif_pos hi
  have hρ := (growth_facts R.nonneg hu1).1
  have hT : ∀ i j, triOf .upper .explicit (fun i j => val (s j i)) i j =
      triOf .lower .explicit (fun i j => val (s i j)) j i :=
    fun i j => CInt.triOf_other .lower .explicit (fun i j => val (s i j)) i j
  have bound : ∀ i j, i < n → j < n →
      |mulMat n p' q' i j - symOf .lower (fun i j => val (a i j)) i j| ≤
        (growth u ^ (3 * n + 1) - 1) * ∑ m ∈ range n,
          |triOf .lower .explicit (fun i j => val (s i j)) i m| *
            |triOf .lower .explicit (fun i j => val (s i j)) j m| := by
    intro i j hi hj
    have := perturbed_product (P := growth u ^ n) (Q := growth u ^ (n + 1)) (one_le_pow₀ hρ)
      (one_le_pow₀ hρ) (n := n) (i := i) (j := j) (p := p') (q := q')
      (l := triOf .lower .explicit (fun i j => val (s i j)))
      (w := fun m j => triOf .lower .explicit (fun i j => val (s i j)) j m)
      (x := symOf .lower (fun i j => val (a i j)) i j)
      (fun m hm => by rw [ep i hi]; exact (hp ⟨i, hi⟩).1 m hm)
      (fun m hm => by
        rw [eq' m hm]
        have := (hq ⟨m, hm⟩).1 j hj
        beta_reduce at this
        rwa [hT] at this)
      (hN.error hρ hi hj)
    rwa [← pow_mul, ← pow_add, show n * 2 + (n + 1) = 3 * n + 1 by omega] at this
  refine ⟨mulMat n p' q', fun i hi => ?_, bound, fun h2' i j hi hj => ?_⟩
  · have e : ∑ j ∈ range n, mulMat n p' q' i j * val (v j) =
        mulVec n (mulMat n p' q') (fun j => val (v j)) i := rfl
    rw [e, mulVec_mulMat, ← (hp ⟨i, hi⟩).2]
    refine sum_congr rfl fun m hm => ?_
    have hm := mem_range.1 hm
    rw [ep _ hi, mulVec, eq' m hm, (hq ⟨m, hm⟩).2]
  · have h2'' : growth u ^ (n + 1) < 2 := h2'
    refine (bound i j hi hj).trans ?_
    change _ ≤ (growth u ^ (3 * n + 1) - 1) / (2 - growth u ^ (n + 1)) * _
    rw [div_mul_eq_mul_div, mul_div_assoc]
    refine mul_le_mul_of_nonneg_left ?_ (by
      have := one_le_pow₀ (n := 3 * n + 1) hρ
      linarith)
    have hpos : 0 < 2 - growth u ^ (n + 1) := by linarith
    have r1 := hN.row hρ h2'' hi
    have r2 := hN.row hρ h2'' hj
    have cs := Real.sum_mul_le_sqrt_mul_sqrt (range n)
      (fun m => ‖triOf .lower .explicit (fun i j => val (s i j)) i m‖)
      (fun m => ‖triOf .lower .explicit (fun i j => val (s i j)) j m‖)
    refine cs.trans ?_
    refine (mul_le_mul (Real.sqrt_le_sqrt r1) (Real.sqrt_le_sqrt r2) (Real.sqrt_nonneg _)
      (Real.sqrt_nonneg _)).trans (le_of_eq ?_)
    rw [Real.sqrt_div' _ hpos.le, Real.sqrt_div' _ hpos.le, div_mul_div_comm,
      Real.mul_self_sqrt hpos.le]

/-- **C78** The solver reports success under the same condition. -/
theorem C78_posv_succeeds (val : F → ℝ) (u : ℝ) (R : RoundedReal val u) (hu1 : u < 1) (minusOne : F)
    (hmo : val minusOne = -1) (A : Mat) (b : Vec) (n : Nat) (h : Heap F) (a : Nat → Nat → F)
    (g : Nat → F) (hA : A.HoldsOn h Triangle.lower.region a) (hb : b.Holds h g) (hr : A.rows = n)
    (hc : A.cols = n) (hbe : b.ext = n) (hu : A.UniqueOn Triangle.lower.region) (hub : b.Unique)
    (hAb : Apart (A.CellOn Triangle.lower.region) b.Cell)
    (hn : n * (((1 + u) / (1 - u)) ^ (n + 1) - 1) < 2 - ((1 + u) / (1 - u)) ^ (n + 1))
    (hpd : ∀ w : Nat → ℝ, (∃ i, i < n ∧ w i ≠ 0) →
      n * (((1 + u) / (1 - u)) ^ (n + 1) - 1) * ∑ i ∈ range n, val (a i i) * w i ^ 2 <
      (2 - ((1 + u) / (1 - u)) ^ (n + 1)) * ∑ i ∈ range n, ∑ j ∈ range n,
        symOf .lower (fun i j => val (a i j)) i j * w i * w j) :
    Ends (posvF 1 minusOne FloatOps.sqrt (FloatOps.lt 0) A b n) h fun ok _ => ok = true := by
  have H := C78_posv val u R hu1 minusOne hmo A b n h a g hA hb hr hc hbe hu hub hAb
  have H' := C78_potrf_succeeds val u R hu1 minusOne hmo A n h a hA hr hc hu hn hpd
  unfold posvF at H ⊢
  rw [ends_bind] at H ⊢
  refine (H.and H').mono ?_
  rintro _ h1 ⟨H, rfl⟩
  rw [if_pos rfl, ends_bind] at H ⊢
  refine H.mono fun _ h2 H => ?_
  rw [ends_bind] at H ⊢
  exact H.mono fun _ h3 _ => ends_pure.2 rfl

/-! ## A case that meets the assumptions

The lower triangle 23 / 24 27 in floating point with 53 digits. -/

theorem growth53 : ((1 + (2 : ℝ)⁻¹ ^ 53) / (1 - (2 : ℝ)⁻¹ ^ 53)) ^ (2 + 1) ≤ 1 + 1 / 1000 := by
  norm_num

theorem block_posdef53 (w : Nat → ℝ) (hw : ∃ i, i < 2 ∧ w i ≠ 0) :
    (2 : ℕ) * (((1 + (2 : ℝ)⁻¹ ^ 53) / (1 - (2 : ℝ)⁻¹ ^ 53)) ^ (2 + 1) - 1) *
        ∑ i ∈ range 2, (mvals F53 (A.block 0 0 2 2) i i).val * w i ^ 2 <
      (2 - ((1 + (2 : ℝ)⁻¹ ^ 53) / (1 - (2 : ℝ)⁻¹ ^ 53)) ^ (2 + 1)) * ∑ i ∈ range 2, ∑ j ∈ range 2,
        symOf .lower (fun i j => (mvals F53 (A.block 0 0 2 2) i j).val) i j * w i * w j := by
  have e : (mvals F53 (A.block 0 0 2 2) 0 0).val = 23 ∧ (mvals F53 (A.block 0 0 2 2) 1 0).val = 24 ∧
      (mvals F53 (A.block 0 0 2 2) 1 1).val = 27 := by
    refine ⟨congrArg Flt.val (a₂ := (⟨23⟩ : F53)) (congrArg Flt.mk ?_),
      congrArg Flt.val (a₂ := (⟨24⟩ : F53)) (congrArg Flt.mk ?_),
      congrArg Flt.val (a₂ := (⟨27⟩ : F53)) (congrArg Flt.mk ?_)⟩ <;> norm_num [A, Mat.block]
  obtain ⟨e00, e10, e11⟩ := e
  have g1 := growth53
  have g0 : 1 ≤ ((1 + (2 : ℝ)⁻¹ ^ 53) / (1 - (2 : ℝ)⁻¹ ^ 53)) ^ (2 + 1) :=
    one_le_pow₀ (growth_facts R53.nonneg u53).1
  generalize ((1 + (2 : ℝ)⁻¹ ^ 53) / (1 - (2 : ℝ)⁻¹ ^ 53)) ^ (2 + 1) = ρ at g0 g1
  simp only [sum_range_succ, range_zero, sum_empty, symOf_lower_eq]
  norm_num [e00, e10, e11]
  have hpos : 0 < w 0 ^ 2 + w 1 ^ 2 := by
    obtain ⟨i, hi, hne⟩ := hw
    interval_cases i <;> positivity
  have h1 : 1 / 2 * (w 0 ^ 2 + w 1 ^ 2) ≤ 23 * w 0 * w 0 + 24 * w 0 * w 1 +
      (24 * w 1 * w 0 + 27 * w 1 * w 1) := by
    nlinarith [sq_nonneg (45 * w 0 + 48 * w 1), sq_nonneg (w 1)]
  have h2 : 23 * w 0 ^ 2 + 27 * w 1 ^ 2 ≤ 27 * (w 0 ^ 2 + w 1 ^ 2) := by nlinarith [sq_nonneg (w 0)]
  have h3 : 0 ≤ 23 * w 0 ^ 2 + 27 * w 1 ^ 2 := by positivity
  have h4 : 2 * (ρ - 1) * (23 * w 0 ^ 2 + 27 * w 1 ^ 2) ≤ 1 / 500 * (27 * (w 0 ^ 2 + w 1 ^ 2)) :=
    mul_le_mul (by linarith) h2 h3 (by norm_num)
  have h5 : 1 / 2 * (1 / 2 * (w 0 ^ 2 + w 1 ^ 2)) ≤ (2 - ρ) * (23 * w 0 * w 0 + 24 * w 0 * w 1 +
      (24 * w 1 * w 0 + 27 * w 1 * w 1)) :=
    mul_le_mul (by linarith) h1 (by positivity) (by linarith)
  linarith

/-- The solver succeeds, and the matrix is changed by at most `(ρ^7 - 1) / (2 - ρ^3) √(a_ii a_jj)`. -/
example : Ends (posvF 1 ⟨-1⟩ FloatOps.sqrt (FloatOps.lt 0) (A.block 0 0 2 2) (y.slice 0 2) 2) (heap F53)
    fun ok h' => ok = true ∧ ∃ v, (y.slice 0 2).Holds h' v ∧ ∃ p : Nat → Nat → ℝ,
      (∀ i, i < 2 → ∑ j ∈ range 2, p i j * (v j).val = (vals F53 (y.slice 0 2) i).val) ∧
      ∀ i j, i < 2 → j < 2 →
        |p i j - symOf .lower (fun i j => (mvals F53 (A.block 0 0 2 2) i j).val) i j| ≤
          (((1 + (2 : ℝ)⁻¹ ^ 53) / (1 - (2 : ℝ)⁻¹ ^ 53)) ^ 7 - 1) /
              (2 - ((1 + (2 : ℝ)⁻¹ ^ 53) / (1 - (2 : ℝ)⁻¹ ^ 53)) ^ 3) *
            (Real.sqrt (mvals F53 (A.block 0 0 2 2) i i).val *
              Real.sqrt (mvals F53 (A.block 0 0 2 2) j j).val) := by
  have hA : (A.block 0 0 2 2).HoldsOn (heap F53) Triangle.lower.region (mvals F53 (A.block 0 0 2 2)) :=
    mholds fun i j hi hj => by simp only [A, Mat.block] at *; omega
  have hb : (y.slice 0 2).Holds (heap F53) (vals F53 (y.slice 0 2)) :=
    holds fun i hi => by simp only [y, Vec.slice] at *; omega
  have hu : (A.block 0 0 2 2).UniqueOn Triangle.lower.region :=
    fun i j k l hi hj _ hk hl _ e => by simp only [A, Mat.block] at *; omega
  have hub : (y.slice 0 2).Unique := fun i k hi hk e => by simp only [y, Vec.slice] at *; omega
  have hAb : Apart ((A.block 0 0 2 2).CellOn Triangle.lower.region) (y.slice 0 2).Cell := by
    rintro a ⟨i, j, hi, hj, -, e⟩ ⟨k, hk, e'⟩
    simp only [A, y, Vec.slice, Mat.block] at *; omega
  refine ((C78_posv_succeeds _ _ (RoundedReal.flt 53) u53 ⟨-1⟩ rfl _ _ 2 _ _ _ hA hb rfl rfl rfl hu hub
    hAb ?_ block_posdef53).and (C78_posv _ _ (RoundedReal.flt 53) u53 ⟨-1⟩ rfl _ _ 2 _ _ _ hA hb rfl rfl
    rfl hu hub hAb)).mono ?_
  · have := growth53
    push_cast
    linarith
  · rintro ok h' ⟨rfl, -, hE⟩
    obtain ⟨s, v, -, hv, p, hp, -, hq⟩ := hE rfl
    exact ⟨rfl, v, hv, p, hp, hq (by have := growth53; linarith)⟩

/-- The factorisation alone. -/
example : Ends (potrfF 1 ⟨-1⟩ FloatOps.sqrt (FloatOps.lt 0) (A.block 0 0 2 2) 2) (heap F53)
    fun ok h' => ok = true ∧ ∃ s, (A.block 0 0 2 2).BecomesOn (heap F53) h' Triangle.lower.region s ∧
      ∀ k, k < 2 → 0 < (s k k).val := by
  have hA : (A.block 0 0 2 2).HoldsOn (heap F53) Triangle.lower.region (mvals F53 (A.block 0 0 2 2)) :=
    mholds fun i j hi hj => by simp only [A, Mat.block] at *; omega
  have hu : (A.block 0 0 2 2).UniqueOn Triangle.lower.region :=
    fun i j k l hi hj _ hk hl _ e => by simp only [A, Mat.block] at *; omega
  refine ((C78_potrf_succeeds _ _ (RoundedReal.flt 53) u53 ⟨-1⟩ rfl _ 2 _ _ hA rfl rfl hu ?_
    block_posdef53).and (C78_potrf _ _ (RoundedReal.flt 53) u53 ⟨-1⟩ rfl _ 2 _ _ hA rfl rfl hu)).mono ?_
  · have := growth53
    push_cast
    linarith
  · rintro ok h' ⟨rfl, s, hs, hE⟩
    exact ⟨rfl, s, hs, (hE rfl).1⟩

end StdBLAS

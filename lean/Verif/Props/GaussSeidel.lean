import Mathlib.Analysis.SpecificLimits.Basic
import Verif.Props.ConjugateGradients
import Verif.Props.Blas2Solve

/-!
# Property C75: the method of Gauss and Seidel
-/

namespace StdBLAS
open Finset Witness

/-- The order in which the elements are corrected. -/
private def rank (t : Triangle) (n i : Nat) : Nat :=
  match t with
  | .lower => i
  | .upper => n - i

/-- One correction makes the largest error smaller by the factor `q`. -/
theorem gaussSeidel_error {t : Triangle} {n : Nat} {a : Nat → Nat → ℝ} {g u w d : Nat → ℝ} {q e : ℝ}
    (hq : q ≤ 1) (he : 0 ≤ e) (hd : ∀ i, i < n → a i i ≠ 0)
    (dom : ∀ i, i < n → ∑ j ∈ (range n).erase i, |a i j| ≤ q * |a i i|)
    (hw : ∀ i, i < n → ∑ j ∈ range n, a i j * w j = g i)
    (hu : ∀ i, i < n → |u i - w i| ≤ e)
    (hs : ∀ i, i < n → ∑ j ∈ range n, triOf t .explicit a i j * d j =
      g i - ∑ j ∈ range n, a i j * u j) :
    ∀ i, i < n → |u i + d i - w i| ≤ q * e := by
  have main : ∀ m i, i < n → rank t n i = m → |u i + d i - w i| ≤ q * e := by
    intro m
    induction m using Nat.strong_induction_on with
    | _ m ih =>
      intro i hi hm
      have hpos : 0 < |a i i| := abs_pos.2 (hd i hi)
      have hqe : q * e ≤ e := by nlinarith only [hq, he]
      have e1 : ∑ j ∈ range n, (triOf t .explicit a i j * d j + a i j * (u j - w j)) = 0 := by
        rw [sum_add_distrib, hs i hi, ← hw i hi]
        simp only [mul_sub, sum_sub_distrib]
        ring1
      rw [← add_sum_erase _ _ (mem_range.2 hi)] at e1
      have hterm : ∀ j ∈ (range n).erase i,
          |triOf t .explicit a i j * d j + a i j * (u j - w j)| ≤ |a i j| * e := fun j hj => by
        obtain ⟨hji, hjn⟩ := mem_erase.1 hj
        have hjn := mem_range.1 hjn
        unfold triOf
        rw [if_neg fun c => hji c.symm]
        split
        · next hreg =>
          have hlt : rank t n j < m := by
            cases t with
            | lower =>
              have : j ≤ i := hreg
              simp only [rank] at *
              omega
            | upper =>
              have : i ≤ j := hreg
              simp only [rank] at *
              omega
          have := ih _ hlt j hjn rfl
          rw [show a i j * d j + a i j * (u j - w j) = a i j * (u j + d j - w j) by ring1, abs_mul]
          exact mul_le_mul_of_nonneg_left (this.trans hqe) (abs_nonneg _)
        · rw [zero_mul, zero_add, abs_mul]
          exact mul_le_mul_of_nonneg_left (hu j hjn) (abs_nonneg _)
      have hdiag : triOf t .explicit a i i = a i i := by unfold triOf; rw [if_pos rfl]
      rw [hdiag] at e1
      have e2 : a i i * (u i + d i - w i) =
          -∑ j ∈ (range n).erase i, (triOf t .explicit a i j * d j + a i j * (u j - w j)) := by
        linear_combination e1
      have e3 : |a i i| * |u i + d i - w i| ≤ |a i i| * (q * e) := by
        rw [← abs_mul, e2, abs_neg]
        refine (abs_sum_le_sum_abs _ _).trans ((sum_le_sum hterm).trans ?_)
        rw [← sum_mul]
        calc _ ≤ q * |a i i| * e := mul_le_mul_of_nonneg_right (dom i hi) he
          _ = _ := by ring1
      exact le_of_mul_le_mul_left e3 hpos
  exact fun i hi => main _ i hi rfl

/-- **C75** The method of Gauss and Seidel, forwards or backwards, for a matrix whose rows are
dominated by the diagonal (by the factor `q`): each step makes the largest error smaller by the factor
`q`, from every first approximation. -/
theorem C75_gauss_seidel (A : Mat) (t : Triangle) (b x r : Vec) (n : Nat) (h : Heap ℝ)
    (a : Nat → Nat → ℝ) (g v0 w : Nat → ℝ) (q e : ℝ) (hA : A.Holds h a) (hb : b.Holds h g)
    (hx : x.Holds h v0) (hr : r.Alloc h) (hrows : A.rows = n) (hcols : A.cols = n) (eb : b.ext = n)
    (ex : x.ext = n) (er : r.ext = n) (ux : x.Unique) (ur : r.Unique) (Ax : Apart A.Cell x.Cell)
    (Ar : Apart A.Cell r.Cell) (bx : Apart b.Cell x.Cell) (br : Apart b.Cell r.Cell)
    (xr : Apart x.Cell r.Cell) (hq : q ≤ 1) (hq0 : 0 ≤ q) (hd : ∀ i, i < n → a i i ≠ 0)
    (dom : ∀ i, i < n → ∑ j ∈ (range n).erase i, |a i j| ≤ q * |a i i|)
    (hw : ∀ i, i < n → ∑ j ∈ range n, a i j * w j = g i) (he : 0 ≤ e)
    (h0 : ∀ i, i < n → |v0 i - w i| ≤ e) (steps : Nat) :
    Ends (gaussSeidel A t b x r steps) h fun _ h' => ∃ v, x.Holds h' v ∧
      (∀ i, i < n → |v i - w i| ≤ q ^ steps * e) ∧
      OnlyChanges (fun c => x.Cell c ∨ r.Cell c) h h' := by
  unfold gaussSeidel
  refine ends_forUp_inv (fun k h' => r.Alloc h' ∧ ∃ v, x.Holds h' v ∧
    (∀ i, i < n → |v i - w i| ≤ q ^ k * e) ∧ OnlyChanges (fun c => x.Cell c ∨ r.Cell c) h h')
    (Nat.zero_le steps) ?_
    ⟨hr, v0, hx, fun i hi => by rw [pow_zero, one_mul]; exact h0 i hi, fun _ _ => rfl⟩ |>.mono
    fun _ _ hh => hh.2
  rintro k - - h1 ⟨hr1, u, hu, hue, hc⟩
  have noA : Apart A.Cell fun c => x.Cell c ∨ r.Cell c := fun c hc hc' =>
    hc'.elim (Ax c hc) (Ar c hc)
  have nob : Apart b.Cell fun c => x.Cell c ∨ r.Cell c := fun c hc hc' =>
    hc'.elim (bx c hc) (br c hc)
  have hA1 : A.Holds h1 a := fun i j hi hj hij => by
    rw [hc _ (noA _ ⟨i, j, hi, hj, hij, rfl⟩)]; exact hA i j hi hj hij
  have hb1 := hb.kept nob hc
  unfold gaussSeidelStep
  rw [ends_bind]
  refine (C16_gemv_update (A.view.scaled (-1)) x.view b.view r h1 (fun i j => -1 * a i j) u g
    (fun i j hi hj hij => ⟨_, hA1 i j hi hj hij, rfl⟩) hu.asView hb1.asView hr1 (er.trans hrows.symm)
    (hcols.trans ex.symm).le (hrows.trans eb.symm).le ur Ar xr br.aligned).mono ?_
  rintro _ h2 ⟨hr2, hc2⟩
  have hA2 : A.Holds h2 a := fun i j hi hj hij => by
    rw [hc2 _ (Ar _ ⟨i, j, hi, hj, hij, rfl⟩)]; exact hA1 i j hi hj hij
  have hu2 := hu.kept xr hc2
  rw [ends_bind]
  refine (C21_trsv_field A.view t .explicit r.view r h2 a _ (fun i j hi hj _ =>
    ⟨_, hA2 i j hi hj trivial, rfl⟩) hr2.asView hr2.alloc (hrows.trans hcols.symm)
    (hrows.trans er.symm) (hrows.trans er.symm).le ur
    (fun c hc => Ar c (by obtain ⟨i, j, hi, hj, _, e⟩ := hc; exact ⟨i, j, hi, hj, trivial, e⟩)) ur
    (fun _ i hi => hd i (hrows ▸ hi))).mono ?_
  rintro _ h3 ⟨d, ⟨hd3, hc3⟩, hsol, -⟩
  have hu3 := hu2.kept xr hc3
  refine (C12_add_vector x.view r.view x h3 u d hu3.asView hd3.asView hu3.alloc le_rfl
    (ex.trans er.symm).le ux ux xr.symm.aligned).mono ?_
  rintro _ h4 ⟨hx4, hc4⟩
  refine ⟨(hd3.kept xr.symm hc4).alloc, _, hx4, ?_, fun c hn => ?_⟩
  · intro i hi
    have := gaussSeidel_error (t := t) (d := d) hq (mul_nonneg (pow_nonneg hq0 k) he) hd dom hw hue
      (fun i hi => by
        have := hsol i (hrows.symm ▸ hi)
        change mulVec A.cols _ _ _ = g i + ∑ j ∈ range A.cols, _ at this
        rw [hcols] at this
        unfold mulVec at this
        rw [this, sub_eq_add_neg, ← sum_neg_distrib]
        exact congrArg _ (sum_congr rfl fun j _ => by ring1)) i hi
    rw [pow_succ, mul_comm (q ^ k), mul_assoc]
    exact this
  · rw [hc4 c fun e => hn (.inl e), hc3 c fun e => hn (.inr e), hc2 c fun e => hn (.inr e), hc c hn]

/-- **C75** If the rows are dominated strictly, the method of Gauss and Seidel converges to the solution:
for every tolerance there is a number of steps from which on all errors are smaller. -/
theorem C75_gauss_seidel_converges (A : Mat) (t : Triangle) (b x r : Vec) (n : Nat) (h : Heap ℝ)
    (a : Nat → Nat → ℝ) (g v0 w : Nat → ℝ) (hA : A.Holds h a) (hb : b.Holds h g)
    (hx : x.Holds h v0) (hr : r.Alloc h) (hrows : A.rows = n) (hcols : A.cols = n) (eb : b.ext = n)
    (ex : x.ext = n) (er : r.ext = n) (ux : x.Unique) (ur : r.Unique) (Ax : Apart A.Cell x.Cell)
    (Ar : Apart A.Cell r.Cell) (bx : Apart b.Cell x.Cell) (br : Apart b.Cell r.Cell)
    (xr : Apart x.Cell r.Cell)
    (dom : ∀ i, i < n → ∑ j ∈ (range n).erase i, |a i j| < |a i i|)
    (hw : ∀ i, i < n → ∑ j ∈ range n, a i j * w j = g i) (eps : ℝ) (heps : 0 < eps) :
    ∃ enough, ∀ steps, enough ≤ steps → Ends (gaussSeidel A t b x r steps) h fun _ h' =>
      ∃ v, x.Holds h' v ∧ ∀ i, i < n → |v i - w i| < eps := by
  have hd : ∀ i, i < n → 0 < |a i i| := fun i hi =>
    lt_of_le_of_lt (sum_nonneg fun j _ => abs_nonneg _) (dom i hi)
  -- the factor
  obtain ⟨q, hq0, hq1, hq⟩ : ∃ q : ℝ, 0 ≤ q ∧ q < 1 ∧
      ∀ i, i < n → ∑ j ∈ (range n).erase i, |a i j| ≤ q * |a i i| := by
    have : ∀ m, m ≤ n → ∃ q : ℝ, 0 ≤ q ∧ q < 1 ∧
        ∀ i, i < m → ∑ j ∈ (range n).erase i, |a i j| ≤ q * |a i i| := by
      intro m
      induction m with
      | zero => exact fun _ => ⟨0, le_rfl, one_pos, fun i hi => absurd hi (Nat.not_lt_zero i)⟩
      | succ m ih =>
        intro hm
        obtain ⟨q, h0, h1, hq⟩ := ih (by omega)
        have hp := hd m hm
        refine ⟨max q ((∑ j ∈ (range n).erase m, |a m j|) / |a m m|), le_max_of_le_left h0,
          max_lt h1 ((div_lt_one hp).2 (dom m hm)), fun i hi => ?_⟩
        rcases Nat.lt_succ_iff_lt_or_eq.1 hi with h | rfl
        · exact (hq i h).trans (mul_le_mul_of_nonneg_right (le_max_left _ _) (abs_nonneg _))
        · exact (div_le_iff₀ hp).1 (le_max_right _ _)
    exact this n le_rfl
  -- the first error
  have herr : ∀ i, i < n → |v0 i - w i| ≤ ∑ j ∈ range n, |v0 j - w j| := fun i hi =>
    single_le_sum (f := fun j => |v0 j - w j|) (fun j _ => abs_nonneg _) (mem_range.2 hi)
  obtain ⟨m, hm⟩ : ∃ m : ℕ, ∀ k, m ≤ k → q ^ k * ∑ j ∈ range n, |v0 j - w j| < eps := by
    have hl := (tendsto_pow_atTop_nhds_zero_of_lt_one hq0 hq1).mul_const
      (∑ j ∈ range n, |v0 j - w j|)
    rw [zero_mul] at hl
    exact Filter.eventually_atTop.1 (hl.eventually_lt_const heps)
  refine ⟨m, fun k hk => ?_⟩
  refine (C75_gauss_seidel A t b x r n h a g v0 w q _ hA hb hx hr hrows hcols eb ex er ux ur Ax Ar bx br
    xr hq1.le hq0 (fun i hi => abs_pos.1 (hd i hi)) hq hw (sum_nonneg fun _ _ => abs_nonneg _) herr
    k).mono ?_
  rintro _ h' ⟨v, hv, hve, -⟩
  exact ⟨v, hv, fun i hi => (hve i hi).trans_lt (hm k hk)⟩

/-- A memory in which `A` has 10 on the diagonal and everything else is 1. -/
private noncomputable def dominated : Heap ℝ := fun c =>
  if c = 30 ∨ c = 34 ∨ c = 38 then some 10 else some 1

private theorem dominated_A : A.Holds dominated fun i j => if i = j then 10 else 1 := by
  intro i j hi hj _
  simp only [A] at hi hj
  change dominated (30 + i + 3 * j) = some (if i = j then 10 else 1)
  unfold dominated
  by_cases e : i = j
  · rw [if_pos (by omega), if_pos e]
  · rw [if_neg (by omega), if_neg e]

private theorem dominated_vec {v : Vec} (hv : ∀ i, i < v.ext → v.addr i < 30) :
    v.Holds dominated fun _ => 1 := fun i hi => by
  have := hv i hi
  unfold dominated
  rw [if_neg (by omega)]

/-- The solution of 10 on the diagonal, 1 elsewhere, with right-hand side 1 is 1/12. -/
example (t : Triangle) (eps : ℝ) (heps : 0 < eps) :
    ∃ enough, ∀ steps, enough ≤ steps → Ends (gaussSeidel A t x y z steps) dominated fun _ h' =>
      ∃ v, y.Holds h' v ∧ ∀ i, i < 3 → |v i - 1 / 12| < eps := by
  refine C75_gauss_seidel_converges A t x y z 3 dominated _ _ _ (fun _ => 1 / 12) dominated_A
    (dominated_vec fun i hi => by simp only [x] at *; omega)
    (dominated_vec fun i hi => by simp only [y] at *; omega)
    (dominated_vec fun i hi => by simp only [z] at *; omega).alloc rfl rfl rfl rfl rfl
    (by view_facts) (by view_facts) (by view_facts) (by view_facts) (by view_facts) (by view_facts)
    (by view_facts) (fun i hi => ?_) (fun i hi => ?_) eps heps
  · interval_cases i <;> simp [sum_erase_eq_sub, sum_range_succ] <;> norm_num
  · interval_cases i <;> simp [sum_range_succ] <;> norm_num

/-- Each sweep divides the distance to the solution by at least 5. -/
example (t : Triangle) (steps : Nat) : Ends (gaussSeidel A t x y z steps) dominated fun _ h' =>
    ∃ v, y.Holds h' v ∧ (∀ i, i < 3 → |v i - 1 / 12| ≤ (1 / 5) ^ steps * 1) ∧
      OnlyChanges (fun c => y.Cell c ∨ z.Cell c) dominated h' := by
  refine C75_gauss_seidel A t x y z 3 dominated _ _ _ (fun _ => 1 / 12) (1 / 5) 1 dominated_A
    (dominated_vec fun i hi => by simp only [x] at *; omega)
    (dominated_vec fun i hi => by simp only [y] at *; omega)
    (dominated_vec fun i hi => by simp only [z] at *; omega).alloc rfl rfl rfl rfl rfl
    (by view_facts) (by view_facts) (by view_facts) (by view_facts) (by view_facts) (by view_facts)
    (by view_facts) (by norm_num) (by norm_num) (fun i hi => ?_) (fun i hi => ?_) (fun i hi => ?_)
    (by norm_num) (fun i hi => ?_) steps
  · norm_num
  · interval_cases i <;> simp [sum_erase_eq_sub, sum_range_succ] <;> norm_num
  · interval_cases i <;> simp [sum_range_succ] <;> norm_num
  · rw [abs_le]; norm_num

end StdBLAS

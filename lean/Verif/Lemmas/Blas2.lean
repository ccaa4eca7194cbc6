import Verif.Lemmas.State

/-! # Lemmas for matrix-vector products -/

namespace StdBLAS
open Finset
variable {α : Type} {h h0 : Heap α}

/-- Accumulating a row into one cell: no algebraic law is used. -/
theorem row_acc [Add α] [Mul α] {A : MatV α} {x : VecV α} {y : Vec} {a : Nat → Nat → α}
    {f : Nat → α} {i : Nat} {s : α} (hA : A.HoldsOn h everywhere a) (hx : x.Holds h f)
    (hi : i < A.rows) (hiy : i < y.ext) (hext : A.cols ≤ x.ext)
    (hAy : Apart (A.toMat.CellOn everywhere) y.Cell) (hxy : Apart x.toVec.Cell y.Cell)
    (hs : h (y.addr i) = some s) :
    Ends (forUp 0 A.cols fun j => do
      let a ← A.get i j
      let b ← x.get j
      y.addTo i (a * b)) h (fun _ h' =>
        h' (y.addr i) = some ((List.range' 0 A.cols).foldl (fun s j => s + a i j * f j) s) ∧
          ∀ b, b ≠ y.addr i → h' b = h b) := by
  refine ends_forEach_acc (y.addr i) (fun s j => s + a i j * f j) ?_ hs
  intro j hj s h' hs' hfr
  have hj' : j < A.cols := (mem_up.1 hj).2
  have hc : OnlyChanges y.Cell h h' := fun b hb => hfr b fun e => hb ⟨i, hiy, e.symm⟩
  rw [ends_bind, (hA.of_onlyChanges hAy hc).get_iff hi hj' trivial, ends_bind,
    (hx.of_onlyChanges hxy hc).get_iff (by omega)]
  unfold Vec.addTo
  simp only [ends_bind, ends_vec_get, ends_vec_set]
  exact ⟨hiy, s, hs', hiy, ⟨s, hs'⟩, by simp, fun b hb => by simp [hb]⟩

/-- `gemv` as a left-to-right fold; no algebraic law is used. -/
theorem gemv_fold [Add α] [Mul α] [Zero α] (A : MatV α) (x : VecV α) (y : Vec) (h : Heap α)
    (a : Nat → Nat → α) (f : Nat → α) (hA : A.Holds h a) (hx : x.Holds h f) (hy : y.Alloc h)
    (hrows : y.ext = A.rows) (hcols : A.cols ≤ x.ext) (hu : y.Unique)
    (hAy : Apart A.toMat.Cell y.Cell) (hxy : Apart x.toVec.Cell y.Cell) :
    Ends (gemv A x y) h fun _ h' =>
      y.Becomes h h' fun i => (List.range' 0 A.cols).foldl (fun s j => s + a i j * f j) 0 := by
  unfold gemv
  rw [← hrows]
  refine ends_vec_cells _ h hu ?_
  intro i hi h1 hc he
  obtain ⟨w, hw⟩ := hy i hi
  rw [ends_bind, ends_vec_set]
  refine ⟨hi, ⟨w, he.trans hw⟩, ?_⟩
  have hc' : OnlyChanges y.Cell h (Function.update h1 (y.addr i) (some 0)) := by
    intro b hb
    rw [Function.update_of_ne]
    · exact hc b hb
    · rintro rfl; exact hb ⟨i, hi, rfl⟩
  refine (row_acc (hA.of_onlyChanges hAy hc') (hx.of_onlyChanges hxy hc') (hrows ▸ hi) hi hcols hAy
    hxy (s := 0) (by simp)).mono ?_
  rintro _ h' ⟨r1, r2⟩
  exact ⟨r1, fun b hb => (r2 b hb).trans (by simp [hb])⟩

/-- Updating `gemv` as a left-to-right fold; no algebraic law is used. -/
theorem gemvUpdate_fold [Add α] [Mul α] (A : MatV α) (x y : VecV α) (z : Vec) (h : Heap α)
    (a : Nat → Nat → α) (f g : Nat → α) (hA : A.Holds h a) (hx : x.Holds h f) (hy : y.Holds h g)
    (hz : z.Alloc h) (hrows : z.ext = A.rows) (hcols : A.cols ≤ x.ext) (hyext : A.rows ≤ y.ext)
    (hu : z.Unique) (hAz : Apart A.toMat.Cell z.Cell) (hxz : Apart x.toVec.Cell z.Cell)
    (hyz : y.toVec.Aligned z) :
    Ends (gemvUpdate A x y z) h fun _ h' =>
      z.Becomes h h' fun i => (List.range' 0 A.cols).foldl (fun s j => s + a i j * f j) (g i) := by
  unfold gemvUpdate
  rw [← hrows]
  refine ends_vec_cells _ h hu ?_
  intro i hi h1 hc he
  obtain ⟨w, hw⟩ := hz i hi
  obtain ⟨v, hv, ev⟩ := hy i (by omega)
  have hrd := hyz.read hc (i := i) (by omega) (fun _ => he)
  simp only [ends_bind, ends_vecV_get, ends_vec_set]
  refine ⟨by omega, v, hrd.trans hv, hi, ⟨w, he.trans hw⟩, ?_⟩
  rw [ev]
  have hc' : OnlyChanges z.Cell h (Function.update h1 (z.addr i) (some (g i))) := by
    intro b hb
    rw [Function.update_of_ne]
    · exact hc b hb
    · rintro rfl; exact hb ⟨i, hi, rfl⟩
  refine (row_acc (hA.of_onlyChanges hAz hc') (hx.of_onlyChanges hxz hc') (hrows ▸ hi) hi hcols hAz
    hxz (s := g i) (by simp)).mono ?_
  rintro _ h' ⟨r1, r2⟩
  exact ⟨r1, fun b hb => (r2 b hb).trans (by simp [hb])⟩

theorem fillZero_ends [Zero α] {y : Vec} {n : Nat} (hn : n = y.ext) (hy : y.Alloc h)
    (hu : y.Unique) : Ends (fillZero n y) h fun _ h' => y.Becomes h h' fun _ => 0 := by
  subst hn
  refine ends_vec_cells _ h hu ?_
  intro i hi h1 hc he
  obtain ⟨w, hw⟩ := hy i hi
  rw [ends_vec_set]
  exact ⟨hi, ⟨w, he.trans hw⟩, by simp, fun b hb => by simp [hb]⟩

theorem fillFrom_ends {y : VecV α} {z : Vec} {n : Nat} (hn : n = z.ext) {g : Nat → α}
    (hy : y.Holds h g) (hext : n ≤ y.ext) (hz : z.Alloc h) (hu : z.Unique)
    (hyz : y.toVec.Aligned z) : Ends (fillFrom n y z) h fun _ h' => z.Becomes h h' g := by
  subst hn
  refine ends_vec_cells _ h hu ?_
  intro i hi h1 hc he
  obtain ⟨w, hw⟩ := hz i hi
  obtain ⟨v, hv, ev⟩ := hy i (by omega)
  have hrd := hyz.read hc (i := i) (by omega) (fun _ => he)
  simp only [ends_bind, ends_vecV_get, ends_vec_set]
  exact ⟨by omega, v, hrd.trans hv, hi, ⟨w, he.trans hw⟩, by simp [ev], fun b hb => by simp [hb]⟩

/-- State of an accumulation: start value plus the terms in `P`. -/
def Vec.Acc [AddCommMonoid α] (z : Vec) (h0 h : Heap α) (u : Nat → α) (n : Nat)
    (t : Nat → Nat → α) (P : Nat → Nat → Prop) : Prop :=
  z.Becomes h0 h fun r => u r + psum n P t r

theorem Vec.Acc.start [AddCommMonoid α] {z : Vec} {u : Nat → α} {n : Nat} {t : Nat → Nat → α}
    (hz : z.Becomes h0 h u) (P : Nat → Nat → Prop) (hP : ∀ r c, r < z.ext → c < n → ¬ P r c) :
    z.Acc h0 h u n t P :=
  hz.congr fun i hi => by rw [psum_none (hP i · hi), add_zero]

theorem Vec.Acc.conv [AddCommMonoid α] {z : Vec} {u : Nat → α} {n : Nat} {t : Nat → Nat → α}
    {P P' : Nat → Nat → Prop}
    (hz : z.Acc h0 h u n t P) (hP : ∀ r c, r < z.ext → c < n → (P r c ↔ P' r c)) :
    z.Acc h0 h u n t P' :=
  Vec.Becomes.congr hz fun i hi => by rw [psum_congr (hP i · hi)]

theorem Vec.Acc.add [AddCommMonoid α] {z : Vec} {u : Nat → α} {n : Nat} {t : Nat → Nat → α}
    {P : Nat → Nat → Prop} (hz : z.Acc h0 h u n t P) (hu : z.Unique) {r c : Nat} (hr : r < z.ext)
    (hc : c < n) (hn : ¬ P r c) {v : α} (hv : v = t r c) (P' : Nat → Nat → Prop)
    (hP : ∀ r' c', r' < z.ext → c' < n → (P' r' c' ↔ P r' c' ∨ (r' = r ∧ c' = c))) :
    Ends (z.addTo r v) h fun _ h' => z.Acc h0 h' u n t P' := by
  refine (Vec.Becomes.addTo hz hu hr v).mono fun _ h' hb => ?_
  exact hb.congr (psum_step hc hn hr hP hv)

theorem Vec.Acc.onlyChanges [AddCommMonoid α] {z : Vec} {u : Nat → α} {n : Nat}
    {t : Nat → Nat → α} {P : Nat → Nat → Prop} (hz : z.Acc h0 h u n t P) :
    OnlyChanges z.Cell h0 h := hz.2

/-- The scatter loops of `symv` and `hemv`, for any way `k` of turning `A(i,j)` into the mirrored
factor and `dg` of turning `A(j,j)` into the diagonal factor. -/
theorem symAcc_lower [NonUnitalNonAssocSemiring α] {A : MatV α} {x : VecV α} {z : Vec}
    {a s : Nat → Nat → α} {f u : Nat → α} (k dg : α → α) {h1 : Heap α}
    (hA : A.HoldsOn h0 Triangle.lower.region a) (hx : x.Holds h0 f)
    (hsq : A.rows = A.cols) (hext : A.rows = z.ext) (hxe : A.cols ≤ x.ext) (hu : z.Unique)
    (hAz : Apart (A.toMat.CellOn Triangle.lower.region) z.Cell) (hxz : Apart x.toVec.Cell z.Cell)
    (hd : ∀ j, s j j = dg (a j j)) (hlo : ∀ i j, j < i → s i j = a i j)
    (hup : ∀ i j, j < i → s j i = k (a i j)) (hz : z.Becomes h0 h1 u) :
    Ends (forUp 0 A.cols fun j => do
      let d ← A.get j j
      let b ← x.get j
      z.addTo j (dg d * b)
      forUp (j + 1) A.rows fun i => do
        let aij ← A.get i j
        let xj ← x.get j
        z.addTo i (aij * xj)
        let xi ← x.get i
        z.addTo j (k aij * xi)) h1 fun _ h' =>
      z.Becomes h0 h' fun r => u r + mulVec A.cols s f r := by
  have fin : ∀ h', z.Acc h0 h' u A.cols (fun r c => s r c * f c)
      (fun r c => r < A.cols ∨ c < A.cols) → z.Becomes h0 h' fun r => u r + mulVec A.cols s f r := by
    intro h' hh
    refine Vec.Becomes.congr hh fun i hi => ?_
    rw [psum_eq (s := fun r c => s r c * f c) (fun _ _ _ => rfl) (fun c hc hn => absurd (Or.inr hc) hn)]
    rfl
  refine (ends_forUp_inv (fun j h' => z.Acc h0 h' u A.cols (fun r c => s r c * f c)
    (fun r c => r < j ∨ c < j)) (Nat.zero_le _) ?_ ?_).mono fun _ h' hh => fin h' hh
  · intro j _ hj h' hh
    have hc := hh.onlyChanges
    have hA' := hA.of_onlyChanges hAz hc
    have hx' := hx.of_onlyChanges hxz hc
    rw [ends_bind, hA'.get_iff (by omega) hj (le_refl j), ends_bind, hx'.get_iff (by omega),
      ends_bind]
    refine (hh.add hu (r := j) (c := j) (by omega) hj (by omega) (by rw [hd])
      (fun r c => r < j ∨ c < j ∨ (r = j ∧ c < j + 1) ∨ (c = j ∧ r < j + 1))
      (fun r c _ _ => by omega)).mono fun _ h2 hh2 => ?_
    refine (ends_forUp_inv (fun i h' => z.Acc h0 h' u A.cols (fun r c => s r c * f c)
      (fun r c => r < j ∨ c < j ∨ (r = j ∧ c < i) ∨ (c = j ∧ r < i))) (by omega) ?_ hh2).mono
      fun _ h3 hh3 => hh3.conv fun r c hr hc => by omega
    intro i hji hi h3 hh3
    have hc3 := hh3.onlyChanges
    have hA3 := hA.of_onlyChanges hAz hc3
    have hx3 := hx.of_onlyChanges hxz hc3
    rw [ends_bind, hA3.get_iff hi hj (by simp only [Triangle.region]; omega), ends_bind,
      hx3.get_iff (by omega), ends_bind]
    refine (hh3.add hu (r := i) (c := j) (by omega) hj (by omega)
      (by rw [hlo i j (by omega)])
      (fun r c => r < j ∨ c < j ∨ (r = j ∧ c < i) ∨ (c = j ∧ r < i + 1))
      (fun r c _ _ => by omega)).mono fun _ h4 hh4 => ?_
    have hx4 := hx.of_onlyChanges hxz hh4.onlyChanges
    rw [ends_bind, hx4.get_iff (by omega)]
    exact hh4.add hu (r := j) (c := i) (by omega) (by omega) (by omega)
      (by rw [hup i j (by omega)]) _ (fun r c _ _ => by omega)
  · exact Vec.Acc.start hz _ (by omega)

theorem symAcc_upper [NonUnitalNonAssocSemiring α] {A : MatV α} {x : VecV α} {z : Vec}
    {a s : Nat → Nat → α} {f u : Nat → α} (k dg : α → α) {h1 : Heap α}
    (hA : A.HoldsOn h0 Triangle.upper.region a) (hx : x.Holds h0 f)
    (hsq : A.rows = A.cols) (hext : A.rows = z.ext) (hxe : A.cols ≤ x.ext) (hu : z.Unique)
    (hAz : Apart (A.toMat.CellOn Triangle.upper.region) z.Cell) (hxz : Apart x.toVec.Cell z.Cell)
    (hd : ∀ j, s j j = dg (a j j)) (hlo : ∀ i j, i < j → s i j = a i j)
    (hup : ∀ i j, i < j → s j i = k (a i j)) (hz : z.Becomes h0 h1 u) :
    Ends (forUp 0 A.cols fun j => do
      forUp 0 j fun i => do
        let aij ← A.get i j
        let xj ← x.get j
        z.addTo i (aij * xj)
        let xi ← x.get i
        z.addTo j (k aij * xi)
      let d ← A.get j j
      let b ← x.get j
      z.addTo j (dg d * b)) h1 fun _ h' =>
      z.Becomes h0 h' fun r => u r + mulVec A.cols s f r := by
  have fin : ∀ h', z.Acc h0 h' u A.cols (fun r c => s r c * f c)
      (fun r c => r < A.cols ∧ c < A.cols) → z.Becomes h0 h' fun r => u r + mulVec A.cols s f r := by
    intro h' hh
    refine Vec.Becomes.congr hh fun i hi => ?_
    rw [psum_eq (s := fun r c => s r c * f c) (fun _ _ _ => rfl)
      (fun c hc hn => absurd ⟨by omega, hc⟩ hn)]
    rfl
  refine (ends_forUp_inv (fun j h' => z.Acc h0 h' u A.cols (fun r c => s r c * f c)
    (fun r c => r < j ∧ c < j)) (Nat.zero_le _) ?_ ?_).mono fun _ h' hh => fin h' hh
  · intro j _ hj h' hh
    rw [ends_bind]
    refine (ends_forUp_inv (fun i h' => z.Acc h0 h' u A.cols (fun r c => s r c * f c)
      (fun r c => (r < j ∧ c < j) ∨ (r = j ∧ c < i) ∨ (c = j ∧ r < i))) (by omega) ?_
      (hh.conv fun r c _ _ => by omega)).mono ?_
    · intro i _ hi h3 hh3
      have hc3 := hh3.onlyChanges
      have hA3 := hA.of_onlyChanges hAz hc3
      have hx3 := hx.of_onlyChanges hxz hc3
      rw [ends_bind, hA3.get_iff (by omega) hj (by simp only [Triangle.region]; omega), ends_bind,
        hx3.get_iff (by omega), ends_bind]
      refine (hh3.add hu (r := i) (c := j) (by omega) hj (by omega)
        (by rw [hlo i j (by omega)])
        (fun r c => (r < j ∧ c < j) ∨ (r = j ∧ c < i) ∨ (c = j ∧ r < i + 1))
        (fun r c _ _ => by omega)).mono fun _ h4 hh4 => ?_
      have hx4 := hx.of_onlyChanges hxz hh4.onlyChanges
      rw [ends_bind, hx4.get_iff (by omega)]
      exact hh4.add hu (r := j) (c := i) (by omega) (by omega) (by omega)
        (by rw [hup i j (by omega)]) _ (fun r c _ _ => by omega)
    · intro _ h2 hh2
      have hc := hh2.onlyChanges
      have hA' := hA.of_onlyChanges hAz hc
      have hx' := hx.of_onlyChanges hxz hc
      rw [ends_bind, hA'.get_iff (by omega) hj (le_refl j), ends_bind, hx'.get_iff (by omega)]
      exact hh2.add hu (r := j) (c := j) (by omega) hj (by omega) (by rw [hd])
        _ (fun r c _ _ => by omega)
  · exact Vec.Acc.start hz _ (by omega)

theorem symvAcc_ends [NonUnitalNonAssocSemiring α] {A : MatV α} {t : Triangle} {x : VecV α} {z : Vec}
    {a : Nat → Nat → α} {f u : Nat → α} {h1 : Heap α}
    (hA : A.HoldsOn h0 t.region a) (hx : x.Holds h0 f)
    (hsq : A.rows = A.cols) (hext : A.rows = z.ext) (hxe : A.cols ≤ x.ext) (hu : z.Unique)
    (hAz : Apart (A.toMat.CellOn t.region) z.Cell) (hxz : Apart x.toVec.Cell z.Cell)
    (hz : z.Becomes h0 h1 u) :
    Ends (symvAcc A t x z) h1 fun _ h' =>
      z.Becomes h0 h' fun r => u r + mulVec A.cols (symOf t a) f r := by
  cases t with
  | lower =>
    refine symAcc_lower id id hA hx hsq hext hxe hu hAz hxz ?_ ?_ ?_ hz
    · intro j; unfold symOf; split <;> rfl
    · intro i j hij; unfold symOf; rw [if_pos]; simp only [Triangle.region]; omega
    · intro i j hij; unfold symOf; rw [if_neg]; rfl; simp only [Triangle.region]; omega
  | upper =>
    refine symAcc_upper id id hA hx hsq hext hxe hu hAz hxz ?_ ?_ ?_ hz
    · intro j; unfold symOf; split <;> rfl
    · intro i j hij; unfold symOf; rw [if_pos]; simp only [Triangle.region]; omega
    · intro i j hij; unfold symOf; rw [if_neg]; rfl; simp only [Triangle.region]; omega

theorem hemvAcc_ends [NonUnitalNonAssocSemiring α] [ConjOps α] {A : MatV α} {t : Triangle}
    {x : VecV α} {z : Vec} {a : Nat → Nat → α} {f u : Nat → α} {h1 : Heap α}
    (hA : A.HoldsOn h0 t.region a) (hx : x.Holds h0 f)
    (hsq : A.rows = A.cols) (hext : A.rows = z.ext) (hxe : A.cols ≤ x.ext) (hu : z.Unique)
    (hAz : Apart (A.toMat.CellOn t.region) z.Cell) (hxz : Apart x.toVec.Cell z.Cell)
    (hz : z.Becomes h0 h1 u) :
    Ends (hemvAcc A t x z) h1 fun _ h' =>
      z.Becomes h0 h' fun r => u r + mulVec A.cols (hermOf t a) f r := by
  cases t with
  | lower =>
    refine symAcc_lower ConjOps.conj ConjOps.re hA hx hsq hext hxe hu hAz hxz ?_ ?_ ?_ hz
    · intro j; unfold hermOf; rw [if_pos rfl]
    · intro i j hij; unfold hermOf; rw [if_neg (by omega), if_pos]; simp only [Triangle.region]; omega
    · intro i j hij; unfold hermOf; rw [if_neg (by omega), if_neg]; simp only [Triangle.region]; omega
  | upper =>
    refine symAcc_upper ConjOps.conj ConjOps.re hA hx hsq hext hxe hu hAz hxz ?_ ?_ ?_ hz
    · intro j; unfold hermOf; rw [if_pos rfl]
    · intro i j hij; unfold hermOf; rw [if_neg (by omega), if_pos]; simp only [Triangle.region]; omega
    · intro i j hij; unfold hermOf; rw [if_neg (by omega), if_neg]; simp only [Triangle.region]; omega

/-! ## Triangular products -/

/-- `triOf` on its support, as read from memory. -/
theorem triOf_off [Zero α] [One α] {t : Triangle} {d : Diag} {a : Nat → Nat → α} {i j : Nat}
    (hij : i ≠ j) (hr : t.region i j) : triOf t d a i j = a i j := by
  unfold triOf; rw [if_neg hij, if_pos hr]

theorem triOf_out [Zero α] [One α] {t : Triangle} {d : Diag} {a : Nat → Nat → α} {i j : Nat}
    (hr : ¬ t.region i j) : triOf t d a i j = 0 := by
  have : i ≠ j := by rintro rfl; cases t <;> exact hr (le_refl i)
  unfold triOf; rw [if_neg this, if_neg hr]

theorem triOf_diag_explicit [Zero α] [One α] {t : Triangle} {a : Nat → Nat → α} {i : Nat} :
    triOf t .explicit a i i = a i i := by unfold triOf; rw [if_pos rfl]

theorem triOf_diag_unit [Zero α] [One α] {t : Triangle} {a : Nat → Nat → α} {i : Nat} :
    triOf t .implicitUnit a i i = 1 := by unfold triOf; rw [if_pos rfl]

theorem trmvAcc_ends [NonAssocSemiring α] {A : MatV α} {t : Triangle} {d : Diag} {x : VecV α}
    {z : Vec} {a : Nat → Nat → α} {f u : Nat → α} {h1 : Heap α}
    (hA : A.HoldsOn h0 (triRegion t d) a) (hx : x.Holds h0 f)
    (hsq : A.rows = A.cols) (hext : A.rows = z.ext) (hxe : A.cols ≤ x.ext) (hu : z.Unique)
    (hAz : Apart (A.toMat.CellOn (triRegion t d)) z.Cell) (hxz : Apart x.toVec.Cell z.Cell)
    (hz : z.Becomes h0 h1 u) :
    Ends (trmvAcc A t d x z) h1 fun _ h' =>
      z.Becomes h0 h' fun r => u r + mulVec A.cols (triOf t d a) f r := by
  have fin : ∀ h', z.Acc h0 h' u A.cols (fun r c => triOf t d a r c * f c)
      (fun r c => c < A.cols ∧ t.region r c) →
      z.Becomes h0 h' fun r => u r + mulVec A.cols (triOf t d a) f r := by
    intro h' hh
    refine Vec.Becomes.congr hh fun i hi => ?_
    rw [psum_eq (s := fun r c => triOf t d a r c * f c) (fun _ _ _ => rfl)]
    · rfl
    · intro c hc hn
      have : ¬ t.region i c := fun hr => hn ⟨hc, hr⟩
      rw [triOf_out this, zero_mul]
  unfold trmvAcc
  cases t with
  | lower =>
    refine (ends_forUp_inv (fun j h' => z.Acc h0 h' u A.cols (fun r c => triOf .lower d a r c * f c)
      (fun r c => c < j ∧ Triangle.lower.region r c)) (Nat.zero_le _) ?_ ?_).mono
      fun _ h' hh => fin h' hh
    · intro j _ hj h' hh
      simp only
      rw [ends_bind]
      have hlow : j ≤ (if d = .explicit then j else j + 1) := by split <;> omega
      refine (ends_forUp_inv (fun i h' => z.Acc h0 h' u A.cols
        (fun r c => triOf .lower d a r c * f c)
        (fun r c => c ≤ r ∧ (c < j ∨ (c = j ∧ (if d = .explicit then j else j + 1) ≤ r ∧ r < i))))
        (by split <;> omega) ?_ (hh.conv fun r c _ _ => ?_)).mono ?_
      · intro i hji hi h3 hh3
        have hA3 := hA.of_onlyChanges hAz hh3.onlyChanges
        have hx3 := hx.of_onlyChanges hxz hh3.onlyChanges
        have hreg : triRegion .lower d i j := by
          refine ⟨by simp only [Triangle.region]; omega, ?_⟩
          rintro rfl; simp at hji; omega
        rw [ends_bind, hA3.get_iff hi hj hreg, ends_bind, hx3.get_iff (by omega)]
        refine hh3.add hu (r := i) (c := j) (by omega) hj (by omega) ?_ _
          (fun r c _ _ => by omega)
        congr 1
        by_cases e : i = j
        · subst e
          cases d
          · simp at hji
          · rw [triOf_diag_explicit]
        · rw [triOf_off e hreg.1]
      · simp only [Triangle.region]; omega
      · intro _ h2 hh2
        cases d with
        | explicit =>
          simp only [if_true, ends_pure]
          exact hh2.conv fun r c hr hc => by simp only [Triangle.region, if_true]; omega
        | implicitUnit =>
          simp only [reduceCtorEq, if_false] at hh2 ⊢
          have hx2 := hx.of_onlyChanges hxz hh2.onlyChanges
          rw [ends_bind, hx2.get_iff (by omega)]
          refine hh2.add hu (r := j) (c := j) (by omega) hj (by omega) ?_ _
            (fun r c _ _ => by simp only [Triangle.region]; omega)
          rw [triOf_diag_unit, one_mul]
    · exact Vec.Acc.start hz _ (by omega)
  | upper =>
    refine (ends_forUp_inv (fun j h' => z.Acc h0 h' u A.cols (fun r c => triOf .upper d a r c * f c)
      (fun r c => c < j ∧ Triangle.upper.region r c)) (Nat.zero_le _) ?_ ?_).mono
      fun _ h' hh => fin h' hh
    · intro j _ hj h' hh
      simp only
      rw [ends_bind]
      refine (ends_forUp_inv (fun i h' => z.Acc h0 h' u A.cols
        (fun r c => triOf .upper d a r c * f c)
        (fun r c => r ≤ c ∧ (c < j ∨ (c = j ∧ r < i))))
        (by split <;> omega) ?_ (hh.conv fun r c _ _ => ?_)).mono ?_
      · intro i hji hi h3 hh3
        have hA3 := hA.of_onlyChanges hAz hh3.onlyChanges
        have hx3 := hx.of_onlyChanges hxz hh3.onlyChanges
        have hij : i ≤ j := by split at hi <;> omega
        have hreg : triRegion .upper d i j := by
          refine ⟨by simp only [Triangle.region]; omega, ?_⟩
          rintro rfl; simp at hi; omega
        rw [ends_bind, hA3.get_iff (by omega) hj hreg, ends_bind, hx3.get_iff (by omega)]
        refine hh3.add hu (r := i) (c := j) (by omega) hj (by omega) ?_ _
          (fun r c _ _ => by omega)
        congr 1
        by_cases e : i = j
        · subst e
          cases d
          · simp at hi
          · rw [triOf_diag_explicit]
        · rw [triOf_off e hreg.1]
      · simp only [Triangle.region]; omega
      · intro _ h2 hh2
        cases d with
        | explicit =>
          simp only [if_true, ends_pure] at hh2 ⊢
          exact hh2.conv fun r c hr hc => by simp only [Triangle.region]; omega
        | implicitUnit =>
          simp only [reduceCtorEq, if_false] at hh2 ⊢
          have hx2 := hx.of_onlyChanges hxz hh2.onlyChanges
          rw [ends_bind, hx2.get_iff (by omega)]
          refine hh2.add hu (r := j) (c := j) (by omega) hj (by omega) ?_ _
            (fun r c _ _ => by simp only [Triangle.region]; omega)
          rw [triOf_diag_unit, one_mul]
    · exact Vec.Acc.start hz _ (by omega)

end StdBLAS

namespace StdBLAS
open Finset
variable {α : Type} {h h0 : Heap α}

theorem Vec.Acc.val [AddCommMonoid α] {z : Vec} {u : Nat → α} {n : Nat} {t : Nat → Nat → α}
    {P : Nat → Nat → Prop} (hz : z.Acc h0 h u n t P) {r : Nat} (hr : r < z.ext)
    (hP : ∀ c, c < n → ¬ P r c) {Q : α → Heap α → Prop} :
    Ends (z.get r) h Q ↔ Q (u r) h := by
  rw [hz.1.get_iff hr, psum_none hP, add_zero]

/-- Replacing the start value of a row to which nothing has been added. -/
theorem Vec.Acc.setBase [AddCommMonoid α] {z : Vec} {u : Nat → α} {n : Nat} {t : Nat → Nat → α}
    {P : Nat → Nat → Prop} (hz : z.Acc h0 h u n t P) (hu : z.Unique) {r : Nat} (hr : r < z.ext)
    (hP : ∀ c, c < n → ¬ P r c) (v : α) (u' : Nat → α)
    (e : ∀ k, k < z.ext → u' k = Function.update u r v k) :
    Ends (z.set r v) h fun _ h' => z.Acc h0 h' u' n t P := by
  refine (Vec.Becomes.set hz hu hr v).mono fun _ h' hb => ?_
  refine Vec.Becomes.congr hb fun k hk => ?_
  rw [e k hk]
  by_cases ek : k = r
  · subst ek
    simp only [Function.update_self]
    rw [psum_none hP, add_zero]
  · rw [Function.update_of_ne ek, Function.update_of_ne ek]

theorem Vec.Acc.congrBase [AddCommMonoid α] {z : Vec} {u u' : Nat → α} {n : Nat}
    {t : Nat → Nat → α} {P : Nat → Nat → Prop} (hz : z.Acc h0 h u n t P)
    (e : ∀ k, k < z.ext → u k = u' k) : z.Acc h0 h u' n t P :=
  Vec.Becomes.congr hz fun k hk => by rw [e k hk]

/-- Row `r` of `T * f` is the diagonal part plus the strict part. -/
theorem tri_row_split [NonAssocSemiring α] {t : Triangle} {d : Diag} {a : Nat → Nat → α}
    {f : Nat → α} {n r : Nat} (hr : r < n) :
    triOf t d a r r * f r + psum n (fun r c => r ≠ c ∧ t.region r c) (fun r c => a r c * f c) r =
      mulVec n (triOf t d a) f r := by
  classical
  unfold psum mulVec
  have : ∀ c ∈ range n, triOf t d a r c * f c =
      (if c = r then triOf t d a r c * f c else 0) +
        (if r ≠ c ∧ t.region r c then a r c * f c else 0) := by
    intro c _
    by_cases e : c = r
    · subst e; simp
    · rw [if_neg e, zero_add]
      by_cases hreg : t.region r c
      · rw [if_pos ⟨Ne.symm e, hreg⟩, triOf_off (Ne.symm e) hreg]
      · rw [if_neg fun h => hreg h.2, triOf_out hreg, zero_mul]
  rw [sum_congr rfl this, sum_add_distrib, sum_ite_eq' (range n) r (fun c => triOf t d a r c * f c),
    if_pos (mem_range.2 hr)]
  congr 1
  refine sum_congr rfl fun c _ => ?_
  congr

/-- In-place triangular product.  The code multiplies by the diagonal from the right. -/
theorem trmvInPlace_ends [NonAssocSemiring α] {A : MatV α} {t : Triangle} {d : Diag} {y : Vec}
    {a : Nat → Nat → α} {f : Nat → α}
    (hA : A.HoldsOn h (triRegion t d) a) (hy : y.Holds h f)
    (hsq : A.rows = A.cols) (hext : A.rows = y.ext) (hu : y.Unique)
    (hAy : Apart (A.toMat.CellOn (triRegion t d)) y.Cell)
    (hcomm : d = .explicit → ∀ i, i < A.rows → f i * a i i = a i i * f i) :
    Ends (trmvInPlace A t d y) h fun _ h' =>
      y.Becomes h h' fun r => mulVec A.cols (triOf t d a) f r := by
  -- value of the diagonal term
  have hdg : ∀ i, i < A.rows →
      (if d = .explicit then f i * a i i else f i) = triOf t d a i i * f i := by
    intro i hi
    cases d with
    | explicit => rw [if_pos rfl, triOf_diag_explicit]; exact hcomm rfl i hi
    | implicitUnit => rw [if_neg (by decide), triOf_diag_unit, one_mul]
  unfold trmvInPlace
  cases t with
  | upper =>
    refine (ends_forUp_inv (fun j h' => y.Acc h h'
      (fun r => if r < j then triOf .upper d a r r * f r else f r) A.cols
      (fun r c => a r c * f c) (fun r c => r < c ∧ c < j)) (Nat.zero_le _) ?_ ?_).mono ?_
    · intro j _ hj h1 hh
      rw [ends_bind, hh.val (by omega) (by omega), if_neg (by omega), ends_bind]
      refine (ends_forUp_inv (fun i h' => y.Acc h h'
        (fun r => if r < j then triOf .upper d a r r * f r else f r) A.cols
        (fun r c => a r c * f c) (fun r c => r < c ∧ (c < j ∨ (c = j ∧ r < i)))) (Nat.zero_le _) ?_
        (hh.conv fun r c _ _ => by omega)).mono ?_
      · intro i _ hi h2 hh2
        have hA2 := hA.of_onlyChanges hAy hh2.onlyChanges
        rw [ends_bind, hA2.get_iff (by omega) hj ⟨by simp only [Triangle.region]; omega, by omega⟩]
        exact hh2.add hu (r := i) (c := j) (by omega) hj (by omega) rfl _
          (fun r c _ _ => by omega)
      · intro _ h2 hh2
        have e2 := hh2.conv (P' := fun r c => r < c ∧ c < j + 1) fun r c _ _ => by omega
        have hA2 := hA.of_onlyChanges hAy hh2.onlyChanges
        have hj2 := hdg j (by omega)
        cases d with
        | explicit =>
          simp only [if_true] at hj2 ⊢
          rw [ends_bind, e2.val (by omega) (by omega), if_neg (by omega), ends_bind,
            hA2.get_iff (by omega) hj ⟨le_refl j, by simp⟩]
          refine e2.setBase hu (by omega) (by omega) _ _ fun k hk => ?_
          rw [hj2]
          by_cases ek : k = j
          · subst ek; simp
          · rw [Function.update_of_ne ek]
            by_cases hk' : k < j
            · rw [if_pos hk', if_pos (by omega)]
            · rw [if_neg hk', if_neg (by omega)]
        | implicitUnit =>
          simp only [reduceCtorEq, if_false, ends_pure] at hj2 ⊢
          refine e2.congrBase fun k hk => ?_
          by_cases ek : k = j
          · subst ek; rw [if_neg (by omega), if_pos (by omega)]; exact hj2
          · by_cases hk' : k < j
            · rw [if_pos hk', if_pos (by omega)]
            · rw [if_neg hk', if_neg (by omega)]
    · exact Vec.Acc.start ((Vec.Becomes.refl hy).congr fun i _ => by rw [if_neg (by omega)]) _
        (by omega)
    · intro _ h' hh
      refine Vec.Becomes.congr hh fun r hr => ?_
      rw [← tri_row_split (by omega)]
      simp only
      rw [if_pos (by omega)]
      congr 1
      exact psum_congr fun c hc => by simp only [Triangle.region]; omega
  | lower =>
    refine (ends_forUp_inv (fun k h' => y.Acc h h'
      (fun r => if A.cols ≤ r + k then triOf .lower d a r r * f r else f r) A.cols
      (fun r c => a r c * f c) (fun r c => c < r ∧ A.cols ≤ c + k)) (Nat.zero_le _) ?_ ?_).mono ?_
    · intro k _ hk h1 hh
      simp only
      generalize hjk : A.cols - (k + 1) = j
      have hj : j < A.cols := by omega
      rw [ends_bind, hh.val (by omega) (by omega), if_neg (by omega), ends_bind]
      refine (ends_forUp_inv (fun i h' => y.Acc h h'
        (fun r => if A.cols ≤ r + k then triOf .lower d a r r * f r else f r) A.cols
        (fun r c => a r c * f c) (fun r c => c < r ∧ (A.cols ≤ c + k ∨ (c = j ∧ r < i))))
        (by omega) ?_ (hh.conv fun r c _ _ => by omega)).mono ?_
      · intro i _ hi h2 hh2
        have hA2 := hA.of_onlyChanges hAy hh2.onlyChanges
        rw [ends_bind, hA2.get_iff (by omega) hj ⟨by simp only [Triangle.region]; omega, by omega⟩]
        exact hh2.add hu (r := i) (c := j) (by omega) hj (by omega) rfl _
          (fun r c _ _ => by omega)
      · intro _ h2 hh2
        have e2 := hh2.conv (P' := fun r c => c < r ∧ A.cols ≤ c + (k + 1)) fun r c _ _ => by omega
        have hA2 := hA.of_onlyChanges hAy hh2.onlyChanges
        have hj2 := hdg j (by omega)
        cases d with
        | explicit =>
          simp only [if_true] at hj2 ⊢
          rw [ends_bind, e2.val (by omega) (by omega), if_neg (by omega), ends_bind,
            hA2.get_iff (by omega) hj ⟨le_refl j, by simp⟩]
          refine e2.setBase hu (by omega) (by omega) _ _ fun r hr => ?_
          rw [hj2]
          by_cases ek : r = j
          · subst ek; rw [if_pos (by omega)]; simp
          · rw [Function.update_of_ne ek]
            by_cases hk' : A.cols ≤ r + k
            · rw [if_pos hk', if_pos (by omega)]
            · rw [if_neg hk', if_neg (by omega)]
        | implicitUnit =>
          simp only [reduceCtorEq, if_false, ends_pure] at hj2 ⊢
          refine e2.congrBase fun r hr => ?_
          by_cases ek : r = j
          · subst ek; rw [if_neg (by omega), if_pos (by omega)]; exact hj2
          · by_cases hk' : A.cols ≤ r + k
            · rw [if_pos hk', if_pos (by omega)]
            · rw [if_neg hk', if_neg (by omega)]
    · exact Vec.Acc.start ((Vec.Becomes.refl hy).congr fun i hi => by rw [if_neg (by omega)]) _
        (by omega)
    · intro _ h' hh
      refine Vec.Becomes.congr hh fun r hr => ?_
      rw [← tri_row_split (by omega)]
      simp only
      rw [if_pos (by omega)]
      congr 1
      exact psum_congr fun c hc => by simp only [Triangle.region]; omega

end StdBLAS

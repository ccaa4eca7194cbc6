import Verif.Lemmas.Mixed
import Verif.Lemmas.Trsv
import Verif.Lemmas.Ordered
import Verif.Lemmas.Blas3Cols

/-! # Triangular algorithms that convert what they store

As in `Lemmas/Trsv.lean`, `Lemmas/Blas3Cols.lean` and `Lemmas/Ordered.lean`, with a function `fin` that
is applied to what a solve stores without division, and a multiplication `mulD` for the diagonal of an
in-place product. -/

namespace StdBLAS
open Finset
variable {α : Type} {h h0 : Heap α}

/-- One row of a substitution, in the order of the code. -/
def subRowF [Sub α] [Mul α] (fin : α → α) (divide : α → α → α) (t : Triangle) (d : Diag) (n : Nat)
    (a : Nat → Nat → α) (g v : Nat → α) (i : Nat) : α :=
  let s := (restOf t n i).foldl (fun s j => s - a i j * v j) (g i)
  if d = .explicit then divide s (a i i) else fin s

theorem subRowF_congr [Sub α] [Mul α] {fin : α → α} {divide : α → α → α} {t : Triangle} {d : Diag} {n : Nat}
    {a : Nat → Nat → α} {g v w : Nat → α} {i : Nat}
    (e : ∀ j ∈ restOf t n i, v j = w j) :
    subRowF fin divide t d n a g v i = subRowF fin divide t d n a g w i := by
  unfold subRowF
  rw [foldl_congr_mem (g := fun s j => s - a i j * w j) fun s j hj => by rw [e j hj]]

/-- The body of the solve loops. -/
def trsvBodyF [Sub α] [Mul α] (fin : α → α) (divide : α → α → α) (A : MatV α) (t : Triangle) (d : Diag)
    (B : VecV α) (X : Vec) (i : Nat) : Prog α Unit := do
  let b ← B.get i
  let s ← foldEach (restOf t A.cols i) b fun s j => do
    let a ← A.get i j
    let xj ← X.get j
    pure (s - a * xj)
  if d = .explicit then do
    let a ← A.get i i
    X.set i (divide s a)
  else X.set i (fin s)

theorem trsvBodyF_ends [Sub α] [Mul α] {fin : α → α} {divide : α → α → α} {A : MatV α} {t : Triangle} {d : Diag}
    {B : VecV α} {X : Vec} {a : Nat → Nat → α} {g u : Nat → α} {i : Nat} {h1 : Heap α}
    (hA : A.HoldsOn h (triRegion t d) a) (hB : B.Holds h g) (hi : i < A.rows)
    (hsq : A.rows = A.cols) (hext : A.rows = X.ext) (hBe : A.rows ≤ B.ext) (hu : X.Unique)
    (hAX : Apart (A.toMat.CellOn (triRegion t d)) X.Cell) (hBX : B.toVec.Aligned X)
    (hb : X.Becomes h h1 u) (hold : h1 (X.addr i) = h (X.addr i)) :
    Ends (trsvBodyF fin divide A t d B X i) h1 fun _ h' =>
      X.Becomes h h' (Function.update u i (subRowF fin divide t d A.cols a g u i)) := by
  unfold trsvBodyF
  obtain ⟨v, hv, ev⟩ := hB i (by omega)
  have hA1 := hA.of_onlyChanges hAX hb.2
  rw [ends_bind, ends_vecV_get]
  refine ⟨by omega, v, ?_, ?_⟩
  · rw [← hv]; exact hBX.read hb.2 (by omega) fun _ => hold
  rw [ev, ends_bind]
  refine (ends_foldEach_read (fun s j => s - a i j * u j) ?_).mono ?_
  · intro j hj s
    obtain ⟨hjn, hji, hr⟩ := (mem_restOf (by omega)).1 hj
    rw [ends_bind, hA1.get_iff hi hjn ⟨hr, fun _ => Ne.symm hji⟩, ends_bind,
      hb.1.get_iff (by omega), ends_pure]
    exact ⟨rfl, rfl⟩
  · rintro s h' ⟨rfl, rfl⟩
    unfold subRowF
    cases d with
    | explicit =>
      simp only [if_true]
      rw [ends_bind, hA1.get_iff hi (by omega) ⟨by cases t <;> simp [Triangle.region], by simp⟩]
      exact hb.set hu (by omega) _
    | implicitUnit =>
      simp only [reduceCtorEq, if_false]
      exact hb.set hu (by omega) _

/-- A solve that applies `fin` to what it stores without division. -/
def trsvF [Sub α] [Mul α] (fin : α → α) (divide : α → α → α) (A : MatV α) (t : Triangle) (d : Diag)
    (B : VecV α) (X : Vec) : Prog α Unit :=
  match t with
  | .lower => forUp 0 A.rows (trsvBodyF fin divide A .lower d B X)
  | .upper => forDown A.rows (trsvBodyF fin divide A .upper d B X)

theorem trsvF_fold [Sub α] [Mul α] (fin : α → α) (divide : α → α → α) {A : MatV α} {t : Triangle} {d : Diag}
    {B : VecV α} {X : Vec} {a : Nat → Nat → α} {g : Nat → α}
    (hA : A.HoldsOn h (triRegion t d) a) (hB : B.Holds h g) (hX : X.Alloc h)
    (hsq : A.rows = A.cols) (hext : A.rows = X.ext) (hBe : A.rows ≤ B.ext) (hu : X.Unique)
    (hAX : Apart (A.toMat.CellOn (triRegion t d)) X.Cell) (hBX : B.toVec.Aligned X) :
    Ends (trsvF fin divide A t d B X) h fun _ h' => ∃ v, X.Becomes h h' v ∧
      ∀ i, i < A.rows → v i = subRowF fin divide t d A.cols a g v i := by
  by_cases hne : A.rows = 0
  · have hx : X.Holds h g := fun i hi => by omega
    unfold trsvF
    cases t with
    | upper =>
      simp only
      rw [hne]
      exact ends_pure.2 ⟨g, Vec.Becomes.refl hx, by omega⟩
    | lower =>
      simp only
      rw [hne]
      exact ends_pure.2 ⟨g, Vec.Becomes.refl hx, by omega⟩
  obtain ⟨w, _⟩ := hX 0 (by omega)
  obtain ⟨f, hf⟩ := hX.exists_holds fun _ => w
  unfold trsvF
  cases t with
  | upper =>
    have key := ends_forDown_inv (n := A.rows) (h := h)
      (body := trsvBodyF fin divide A .upper d B X)
      (fun m h' => ∃ v, X.Becomes h h' v ∧ (∀ i, i < m → i < X.ext → v i = f i) ∧
        ∀ i, m ≤ i → i < A.rows → v i = subRowF fin divide .upper d A.cols a g v i) ?_
      ⟨f, Vec.Becomes.refl hf, fun _ _ _ => rfl, by omega⟩
    · refine Ends.mono key ?_
      rintro _ h' ⟨v, hb, _, hv⟩
      exact ⟨v, hb, fun i hi => hv i (by omega) hi⟩
    · rintro k hk h1 ⟨v, hb, hold, hv⟩
      refine (trsvBodyF_ends hA hB hk hsq hext hBe hu hAX hBX hb ?_).mono ?_
      · rw [hb.1 k (by omega), hf k (by omega), hold k (by omega) (by omega)]
      · intro _ h' hb'
        refine ⟨_, hb', fun i h1 h2 => ?_, fun i h1 h2 => ?_⟩
        · rw [Function.update_of_ne (by omega)]; exact hold i (by omega) h2
        · have hc : subRowF fin divide .upper d A.cols a g
              (Function.update v k (subRowF fin divide .upper d A.cols a g v k)) i =
                subRowF fin divide .upper d A.cols a g v i := by
            refine subRowF_congr fun j hj => ?_
            have := (mem_restOf (by omega)).1 hj
            simp only [Triangle.region] at this
            rw [Function.update_of_ne (by omega)]
          rw [hc]
          by_cases e : i = k
          · subst e; rw [Function.update_self]
          · rw [Function.update_of_ne e]; exact hv i (by omega) h2
  | lower =>
    have key := ends_forUp_inv (lo := 0) (hi := A.rows) (h := h)
      (body := trsvBodyF fin divide A .lower d B X)
      (fun m h' => ∃ v, X.Becomes h h' v ∧ (∀ i, m ≤ i → i < X.ext → v i = f i) ∧
        ∀ i, i < m → v i = subRowF fin divide .lower d A.cols a g v i) (Nat.zero_le _) ?_
      ⟨f, Vec.Becomes.refl hf, fun _ _ _ => rfl, by omega⟩
    · refine Ends.mono key ?_
      rintro _ h' ⟨v, hb, _, hv⟩
      exact ⟨v, hb, fun i hi => hv i hi⟩
    · rintro k _ hk h1 ⟨v, hb, hold, hv⟩
      refine (trsvBodyF_ends hA hB hk hsq hext hBe hu hAX hBX hb ?_).mono ?_
      · rw [hb.1 k (by omega), hf k (by omega), hold k (by omega) (by omega)]
      · intro _ h' hb'
        refine ⟨_, hb', fun i h1 h2 => ?_, fun i h1 => ?_⟩
        · rw [Function.update_of_ne (by omega)]; exact hold i (by omega) h2
        · have hc : subRowF fin divide .lower d A.cols a g
              (Function.update v k (subRowF fin divide .lower d A.cols a g v k)) i =
                subRowF fin divide .lower d A.cols a g v i := by
            refine subRowF_congr fun j hj => ?_
            have := (mem_restOf (by omega)).1 hj
            simp only [Triangle.region] at this
            rw [Function.update_of_ne (by omega)]
          rw [hc]
          by_cases e : i = k
          · subst e; rw [Function.update_self]
          · rw [Function.update_of_ne e]; exact hv i (by omega)

/-- A substitution has one result. -/
theorem subRowF_unique [Sub α] [Mul α] {fin : α → α} {divide : α → α → α} {t : Triangle} {d : Diag} {n : Nat}
    {a : Nat → Nat → α} {g v w : Nat → α}
    (hv : ∀ i, i < n → v i = subRowF fin divide t d n a g v i)
    (hw : ∀ i, i < n → w i = subRowF fin divide t d n a g w i) : ∀ i, i < n → v i = w i := by
  cases t with
  | lower =>
    intro i
    induction i using Nat.strong_induction_on with
    | _ i ih =>
      intro hi
      rw [hv i hi, hw i hi]
      refine subRowF_congr fun j hj => ?_
      have := (mem_restOf hi).1 hj
      simp only [Triangle.region] at this
      exact ih j (by omega) (by omega)
  | upper =>
    have H : ∀ k i, i < n → n - i ≤ k → v i = w i := by
      intro k
      induction k with
      | zero => omega
      | succ k ih =>
        intro i hi hk
        rw [hv i hi, hw i hi]
        refine subRowF_congr fun j hj => ?_
        have := (mem_restOf hi).1 hj
        simp only [Triangle.region] at this
        exact ih j (by omega) (by omega)
    exact fun i hi => H n i hi (by omega)

/-- `trmvInPlace` with another multiplication for the diagonal. -/
def trmvInPlaceF [Add α] [Mul α] (mulD : α → α → α) (A : MatV α) (t : Triangle) (d : Diag) (y : Vec) :
    Prog α Unit :=
  match t with
  | .lower =>
    forUp 0 A.cols fun k => do
      let j := A.cols - (k + 1)
      let tmp ← y.get j
      forUp (j + 1) A.rows fun i => do
        let a ← A.get i j
        y.addTo i (a * tmp)
      if d = .explicit then do
        let v ← y.get j
        let a ← A.get j j
        y.set j (mulD v a)
      else pure ()
  | .upper =>
    forUp 0 A.cols fun j => do
      let tmp ← y.get j
      forUp 0 j fun i => do
        let a ← A.get i j
        y.addTo i (a * tmp)
      if d = .explicit then do
        let v ← y.get j
        let a ← A.get j j
        y.set j (mulD v a)
      else pure ()

theorem trmvInPlaceF_seq [Add α] [Mul α] (mulD : α → α → α) {A : MatV α} {t : Triangle} {d : Diag} {y : Vec}
    {a : Nat → Nat → α} {f : Nat → α}
    (hA : A.HoldsOn h (triRegion t d) a) (hy : y.Holds h f)
    (hsq : A.rows = A.cols) (hext : A.rows = y.ext) (hu : y.Unique)
    (hAy : Apart (A.toMat.CellOn (triRegion t d)) y.Cell) :
    Ends (trmvInPlaceF mulD A t d y) h fun _ h' =>
      y.Becomes h h' fun r => triSeqInPlace t A.cols a f
        (if d = .explicit then mulD (f r) (a r r) else f r) r := by
  unfold trmvInPlaceF
  cases t with
  | upper =>
    refine (ends_forUp_inv (fun j h' => y.Seq h h'
      (fun r => if r < j then (if d = .explicit then mulD (f r) (a r r) else f r) else f r)
      (fun r k => a r (r + 1 + k) * f (r + 1 + k)) (fun r => j - 1 - r))
      (Nat.zero_le _) ?_ ?_).mono ?_
    · intro j _ hj h1 hh
      rw [ends_bind, hh.val (by omega) (by omega), if_neg (by omega), ends_bind]
      refine (ends_forUp_inv (fun i h' => y.Seq h h'
        (fun r => if r < j then (if d = .explicit then mulD (f r) (a r r) else f r) else f r)
        (fun r k => a r (r + 1 + k) * f (r + 1 + k))
        (fun r => if r < i then j - r else j - 1 - r)) (Nat.zero_le _) ?_
        (hh.conv fun r _ => by rw [if_neg (by omega)])).mono ?_
      · intro i _ hi h2 hh2
        have hA2 := hA.of_onlyChanges hAy hh2.onlyChanges
        rw [ends_bind, hA2.get_iff (by omega) hj ⟨by simp only [Triangle.region]; omega, by omega⟩]
        refine hh2.add hu (r := i) (by omega) ?_ _ (by split_ifs <;> omega)
          (fun r _ hr => by split_ifs <;> omega)
        rw [if_neg (by omega), show i + 1 + (j - 1 - i) = j by omega]
      · intro _ h2 hh2
        have e2 := hh2.conv (len' := fun r => j + 1 - 1 - r) fun r _ => by split_ifs <;> omega
        have hA2 := hA.of_onlyChanges hAy hh2.onlyChanges
        cases d with
        | explicit =>
          simp only [if_true] at e2 ⊢
          rw [ends_bind, e2.val (by omega) (by omega), if_neg (by omega), ends_bind,
            hA2.get_iff (by omega) hj ⟨le_refl j, by simp⟩]
          refine e2.setBase hu (by omega) (by omega) _ _ fun k hk => ?_
          by_cases ek : k = j
          · subst ek; simp
          · rw [Function.update_of_ne ek]
            by_cases hk' : k < j
            · rw [if_pos hk', if_pos (by omega)]
            · rw [if_neg hk', if_neg (by omega)]
        | implicitUnit =>
          simp only [reduceCtorEq, if_false, ends_pure] at e2 ⊢
          refine e2.congrBase fun k hk => ?_
          rw [ite_self, ite_self]
    · exact Vec.Seq.start ((Vec.Becomes.refl hy).congr fun i _ => by rw [if_neg (by omega)])
        (fun r _ => by omega)
    · intro _ h' hh
      exact Vec.Becomes.congr hh fun r hr => by simp only [triSeqInPlace]; rw [if_pos (by omega)]
  | lower =>
    refine (ends_forUp_inv (fun k h' => y.Seq h h'
      (fun r => if A.cols ≤ r + k then (if d = .explicit then mulD (f r) (a r r) else f r) else f r)
      (fun r c => a r (r - 1 - c) * f (r - 1 - c)) (fun r => r - (A.cols - k)))
      (Nat.zero_le _) ?_ ?_).mono ?_
    · intro k _ hk h1 hh
      simp only
      generalize hjk : A.cols - (k + 1) = j
      have hj : j < A.cols := by omega
      rw [ends_bind, hh.val (by omega) (by omega), if_neg (by omega), ends_bind]
      refine (ends_forUp_inv (fun i h' => y.Seq h h'
        (fun r => if A.cols ≤ r + k then (if d = .explicit then mulD (f r) (a r r) else f r) else f r)
        (fun r c => a r (r - 1 - c) * f (r - 1 - c))
        (fun r => if r < i then r - j else r - (A.cols - k)))
        (by omega) ?_ (hh.conv fun r _ => by split_ifs <;> omega)).mono ?_
      · intro i _ hi h2 hh2
        have hA2 := hA.of_onlyChanges hAy hh2.onlyChanges
        rw [ends_bind, hA2.get_iff (by omega) hj ⟨by simp only [Triangle.region]; omega, by omega⟩]
        refine hh2.add hu (r := i) (by omega) ?_ _ (by split_ifs <;> omega)
          (fun r _ hr => by split_ifs <;> omega)
        rw [if_neg (by omega), show i - 1 - (i - (A.cols - k)) = j by omega]
      · intro _ h2 hh2
        have e2 := hh2.conv (len' := fun r => r - j) fun r _ => by split_ifs <;> omega
        have hA2 := hA.of_onlyChanges hAy hh2.onlyChanges
        cases d with
        | explicit =>
          simp only [if_true] at e2 ⊢
          rw [ends_bind, e2.val (by omega) (by omega), if_neg (by omega), ends_bind,
            hA2.get_iff (by omega) hj ⟨le_refl j, by simp⟩]
          refine e2.setBase hu (by omega) (by omega) _ _ fun r hr => ?_
          by_cases ek : r = j
          · subst ek; rw [if_pos (by omega)]; simp
          · rw [Function.update_of_ne ek]
            by_cases hk' : A.cols ≤ r + k
            · rw [if_pos hk', if_pos (by omega)]
            · rw [if_neg hk', if_neg (by omega)]
        | implicitUnit =>
          simp only [reduceCtorEq, if_false, ends_pure] at e2 ⊢
          refine e2.congrBase fun r hr => ?_
          rw [ite_self, ite_self]
    · exact Vec.Seq.start ((Vec.Becomes.refl hy).congr fun i hi => by rw [if_neg (by omega)])
        (fun r _ => by omega)
    · intro _ h' hh
      refine Vec.Becomes.congr hh fun r hr => ?_
      simp only [triSeqInPlace]
      rw [if_pos (by omega), show r - (A.cols - A.cols) = r by omega]

/-- `trmmLeftInPlace` on one column, with another multiplication for the diagonal. -/
def trmmColInPlaceF [Add α] [Mul α] (mulD : α → α → α) (A : MatV α) (t : Triangle) (d : Diag) (y : Vec) :
    Prog α Unit :=
  match t with
  | .upper =>
    forUp 0 y.ext fun k => do
      forUp 0 k fun i => do
        let a ← A.get i k
        let c ← y.get k
        y.addTo i (a * c)
      if d = .explicit then do
        let a ← A.get k k
        let c ← y.get k
        y.set k (mulD a c)
      else pure ()
  | .lower =>
    forDown y.ext fun k => do
      forUp (k + 1) y.ext fun i => do
        let a ← A.get i k
        let c ← y.get k
        y.addTo i (a * c)
      if d = .explicit then do
        let a ← A.get k k
        let c ← y.get k
        y.set k (mulD a c)
      else pure ()

theorem trmmColInPlaceF_seq [Add α] [Mul α] (mulD : α → α → α) {A : MatV α} {t : Triangle} {d : Diag} {y : Vec}
    {a : Nat → Nat → α} {f : Nat → α}
    (hA : A.HoldsOn h (triRegion t d) a) (hy : y.Holds h f)
    (hsq : A.rows = A.cols) (hext : A.rows = y.ext) (hu : y.Unique)
    (hAy : Apart (A.toMat.CellOn (triRegion t d)) y.Cell) :
    Ends (trmmColInPlaceF mulD A t d y) h fun _ h' =>
      y.Becomes h h' fun r => triSeqInPlace t A.cols a f
        (if d = .explicit then mulD (a r r) (f r) else f r) r := by
  unfold trmmColInPlaceF
  cases t with
  | upper =>
    refine (ends_forUp_inv (fun j h' => y.Seq h h'
      (fun r => if r < j then (if d = .explicit then mulD (a r r) (f r) else f r) else f r)
      (fun r k => a r (r + 1 + k) * f (r + 1 + k)) (fun r => j - 1 - r))
      (Nat.zero_le _) ?_ ?_).mono ?_
    · intro j _ hj h1 hh
      rw [ends_bind]
      refine (ends_forUp_inv (fun i h' => y.Seq h h'
        (fun r => if r < j then (if d = .explicit then mulD (a r r) (f r) else f r) else f r)
        (fun r k => a r (r + 1 + k) * f (r + 1 + k))
        (fun r => if r < i then j - r else j - 1 - r)) (Nat.zero_le _) ?_
        (hh.conv fun r _ => by rw [if_neg (by omega)])).mono ?_
      · intro i _ hi h2 hh2
        have hA2 := hA.of_onlyChanges hAy hh2.onlyChanges
        rw [ends_bind, hA2.get_iff (by omega) (by omega)
          ⟨by simp only [Triangle.region]; omega, by omega⟩, ends_bind,
          hh2.val hj (by split_ifs <;> omega), if_neg (by omega)]
        refine hh2.add hu (r := i) (by omega) ?_ _ (by split_ifs <;> omega)
          (fun r _ hr => by split_ifs <;> omega)
        rw [if_neg (by omega), show i + 1 + (j - 1 - i) = j by omega]
      · intro _ h2 hh2
        have e2 := hh2.conv (len' := fun r => j + 1 - 1 - r) fun r _ => by split_ifs <;> omega
        have hA2 := hA.of_onlyChanges hAy hh2.onlyChanges
        cases d with
        | explicit =>
          simp only [if_true] at e2 ⊢
          rw [ends_bind, hA2.get_iff (by omega) (by omega) ⟨le_refl j, by simp⟩, ends_bind,
            e2.val hj (by omega), if_neg (by omega)]
          refine e2.setBase hu (by omega) (by omega) _ _ fun k hk => ?_
          by_cases ek : k = j
          · subst ek; simp
          · rw [Function.update_of_ne ek]
            by_cases hk' : k < j
            · rw [if_pos hk', if_pos (by omega)]
            · rw [if_neg hk', if_neg (by omega)]
        | implicitUnit =>
          simp only [reduceCtorEq, if_false, ends_pure] at e2 ⊢
          refine e2.congrBase fun k hk => ?_
          rw [ite_self, ite_self]
    · exact Vec.Seq.start ((Vec.Becomes.refl hy).congr fun i _ => by rw [if_neg (by omega)])
        (fun r _ => by omega)
    · intro _ h' hh
      exact Vec.Becomes.congr hh fun r hr => by
        simp only [triSeqInPlace]; rw [if_pos (by omega), ← hext, hsq]
  | lower =>
    refine (ends_forDown_inv (fun m h' => y.Seq h h'
      (fun r => if m ≤ r then (if d = .explicit then mulD (a r r) (f r) else f r) else f r)
      (fun r c => a r (r - 1 - c) * f (r - 1 - c)) (fun r => r - m)) ?_ ?_).mono ?_
    · intro j hj h1 hh
      rw [ends_bind]
      refine (ends_forUp_inv (fun i h' => y.Seq h h'
        (fun r => if j + 1 ≤ r then (if d = .explicit then mulD (a r r) (f r) else f r) else f r)
        (fun r c => a r (r - 1 - c) * f (r - 1 - c))
        (fun r => if r < i then r - j else r - (j + 1)))
        (by omega) ?_ (hh.conv fun r _ => by split_ifs <;> omega)).mono ?_
      · intro i _ hi h2 hh2
        have hA2 := hA.of_onlyChanges hAy hh2.onlyChanges
        rw [ends_bind, hA2.get_iff (by omega) (by omega)
          ⟨by simp only [Triangle.region]; omega, by omega⟩, ends_bind,
          hh2.val hj (by split_ifs <;> omega), if_neg (by omega)]
        refine hh2.add hu (r := i) (by omega) ?_ _ (by split_ifs <;> omega)
          (fun r _ hr => by split_ifs <;> omega)
        rw [if_neg (by omega), show i - 1 - (i - (j + 1)) = j by omega]
      · intro _ h2 hh2
        have e2 := hh2.conv (len' := fun r => r - j) fun r _ => by split_ifs; omega
        have hA2 := hA.of_onlyChanges hAy hh2.onlyChanges
        cases d with
        | explicit =>
          simp only [if_true] at e2 ⊢
          rw [ends_bind, hA2.get_iff (by omega) (by omega) ⟨le_refl j, by simp⟩, ends_bind,
            e2.val hj (by omega), if_neg (by omega)]
          refine e2.setBase hu (by omega) (by omega) _ _ fun r hr => ?_
          by_cases ek : r = j
          · subst ek; rw [if_pos (by omega)]; simp
          · rw [Function.update_of_ne ek]
            by_cases hk' : j + 1 ≤ r
            · rw [if_pos hk', if_pos (by omega)]
            · rw [if_neg hk', if_neg (by omega)]
        | implicitUnit =>
          simp only [reduceCtorEq, if_false, ends_pure] at e2 ⊢
          refine e2.congrBase fun r hr => ?_
          rw [ite_self, ite_self]
    · exact Vec.Seq.start ((Vec.Becomes.refl hy).congr fun i hi => by rw [if_neg (by omega)])
        (fun r _ => by omega)
    · intro _ h' hh
      refine Vec.Becomes.congr hh fun r hr => ?_
      simp only [triSeqInPlace]
      rw [if_pos (by omega), show r - 0 = r by omega]

/-- One column of `trmmRightInPlace`. -/
def trmmRightColF [Add α] [Mul α] (mulD : α → α → α) (A : MatV α) (t : Triangle) (d : Diag) (C : Mat) (j : Nat) :
    Prog α Unit := do
  (if d = .explicit then
    forUp 0 C.rows fun i => do
      let c ← C.get i j
      let a ← A.get j j
      C.set i j (mulD c a)
  else pure ())
  forEach (rightRest t C.cols j) fun k => forUp 0 C.rows fun i => do
    let c ← C.get i k
    let a ← A.get k j
    C.addTo i j (c * a)

/-- One element of the in-place right product as the code computes it. -/
def rightElemF [Add α] [Mul α] (mulD : α → α → α) (t : Triangle) (d : Diag) (n : Nat) (a c : Nat → Nat → α)
    (i j : Nat) : α :=
  (rightRest t n j).foldl (fun s k => s + c i k * a k j)
    (if d = .explicit then mulD (c i j) (a j j) else c i j)

theorem trmmRightColF_ends [Add α] [Mul α] (mulD : α → α → α) {A : MatV α} {t : Triangle} {d : Diag} {C : Mat}
    {a c u : Nat → Nat → α} {h1 : Heap α} {j : Nat}
    (hA : A.HoldsOn h (triRegion t d) a)
    (hsq : A.rows = A.cols) (hr : C.cols = A.cols) (hu : C.Unique)
    (hAC : Apart (A.toMat.CellOn (triRegion t d)) C.Cell) (hj : j < C.cols)
    (hb : C.Becomes h h1 u)
    (hold : ∀ i k, (k = j ∨ k ∈ rightRest t C.cols j) → u i k = c i k) :
    Ends (trmmRightColF mulD A t d C j) h1 fun _ h' => C.Becomes h h' fun r k =>
      if k = j then rightElemF mulD t d C.cols a c r j else u r k := by
  unfold trmmRightColF
  rw [ends_bind]
  refine Ends.mono (Q := fun _ h' => C.Becomes h h' fun r k => if k = j then
    (if d = .explicit then mulD (c r j) (a j j) else c r j) else u r k) ?_ fun _ h2 hb2 => ?_
  · cases d with
    | explicit =>
      simp only [if_true]
      refine Mat.BecomesOn.colLoop hb hu hj (fun r => mulD (c r j) (a j j)) ?_
      intro i hi h2 w hw hwu
      refine ⟨mulD (w i j) (a j j), by rw [hwu i j (Or.inr le_rfl), hold i j (Or.inl rfl)], fun Q q => ?_⟩
      rw [ends_bind, hw.1.get_iff hi hj trivial, ends_bind,
        (hA.of_onlyChanges hAC hw.2).get_iff (by omega) (by omega)
          ⟨by cases t <;> exact le_refl j, by simp⟩]
      exact q
    | implicitUnit =>
      simp only [reduceCtorEq, if_false, ends_pure]
      refine Mat.BecomesOn.congr hb fun r k _ _ _ => ?_
      by_cases e : k = j
      · rw [if_pos e, e, hold r j (Or.inl rfl)]
      · rw [if_neg e]
  · have hmem : ∀ k ∈ rightRest t C.cols j, k < C.cols ∧ k ≠ j ∧ triRegion t d k j := by
      intro k hk
      obtain ⟨x1, x2, x3⟩ := (mem_restOf hj).1 hk
      exact ⟨x1, x2, by cases t <;> exact x3, fun _ => x2⟩
    unfold rightElemF
    refine Ends.mono (ends_forEach_fold (R := fun (s : Nat → α) h' => C.Becomes h h' fun r k =>
      if k = j then s r else u r k) (fun s k r => s r + c r k * a k j) ?_ hb2) ?_
    · intro k hk s h3 hb3
      obtain ⟨hk1, hk2, hk3⟩ := hmem k hk
      refine (Mat.BecomesOn.colLoop hb3 hu hj (fun r => s r + c r k * a k j) ?_).mono ?_
      · intro i hi h4 w hw hwu
        refine ⟨w i j + w i k * a k j, ?_, fun Q q => ?_⟩
        · rw [hwu i j (Or.inr le_rfl), hwu i k (Or.inl hk2), if_pos rfl, if_neg hk2,
            hold i k (Or.inr hk)]
        · rw [ends_bind, hw.1.get_iff hi hk1 trivial, ends_bind,
            (hA.of_onlyChanges hAC hw.2).get_iff (by omega) (by omega) hk3]
          unfold Mat.addTo
          rw [ends_bind, hw.1.get_iff hi hj trivial]
          exact q
      · intro _ h4 hb4
        refine Mat.BecomesOn.congr hb4 fun r k' _ _ _ => ?_
        by_cases e : k' = j
        · rw [if_pos e, if_pos e]
        · rw [if_neg e, if_neg e, if_neg e]
    · intro _ h3 hb3
      refine Mat.BecomesOn.congr hb3 fun r k _ _ _ => ?_
      by_cases e : k = j
      · rw [if_pos e, if_pos e]
        generalize rightRest t C.cols j = l
        generalize hs : (fun r => if d = .explicit then mulD (c r j) (a j j) else c r j) = s
        have : (if d = .explicit then mulD (c r j) (a j j) else c r j) = s r := by rw [← hs]
        rw [this]
        clear this hs
        induction l generalizing s with
        | nil => rfl
        | cons k l ih => rw [List.foldl_cons, List.foldl_cons]; exact ih _
      · rw [if_neg e, if_neg e]

/-- `trmmRightInPlace` with another multiplication for the diagonal. -/
def trmmRightInPlaceF [Add α] [Mul α] (mulD : α → α → α) (A : MatV α) (t : Triangle) (d : Diag)
    (C : Mat) : Prog α Unit :=
  match t with
  | .upper => forDown C.cols (trmmRightColF mulD A .upper d C)
  | .lower => forUp 0 C.cols (trmmRightColF mulD A .lower d C)

/-- `triangular_matrix_right_product` as folds; no algebraic law is used. -/
theorem trmmRightInPlaceF_fold [Add α] [Mul α] (mulD : α → α → α) {A : MatV α} {t : Triangle} {d : Diag} {C : Mat}
    {a c : Nat → Nat → α}
    (hA : A.HoldsOn h (triRegion t d) a) (hC : C.Holds h c)
    (hsq : A.rows = A.cols) (hr : C.cols = A.cols) (hu : C.Unique)
    (hAC : Apart (A.toMat.CellOn (triRegion t d)) C.Cell) :
    Ends (trmmRightInPlaceF mulD A t d C) h fun _ h' =>
      C.Becomes h h' fun i j => rightElemF mulD t d C.cols a c i j := by
  unfold trmmRightInPlaceF
  cases t with
  | upper =>
    have key := ends_forDown_inv (n := C.cols) (h := h) (body := trmmRightColF mulD A .upper d C)
      (fun m h' => C.Becomes h h' fun i j =>
        if m ≤ j then rightElemF mulD .upper d C.cols a c i j else c i j) ?_ ?_
    · refine Ends.mono key fun _ h' hb => Mat.BecomesOn.congr hb fun i j _ _ _ => ?_
      rw [if_pos (by omega)]
    · intro j hj h1 hb
      refine (trmmRightColF_ends mulD (c := c) hA hsq hr hu hAC hj hb ?_).mono fun _ h' hb' =>
        Mat.BecomesOn.congr hb' fun i k _ _ _ => ?_
      · intro i k hk
        rw [if_neg]
        rcases hk with rfl | hk
        · omega
        · have := ((mem_restOf hj).1 hk).2
          simp only [Triangle.flip, Triangle.region] at this
          omega
      · by_cases e : k = j
        · subst e; rw [if_pos rfl, if_pos le_rfl]
        · rw [if_neg e]
          by_cases e' : j + 1 ≤ k
          · rw [if_pos e', if_pos (by omega)]
          · rw [if_neg e', if_neg (by omega)]
    · exact Mat.BecomesOn.congr (Mat.BecomesOn.refl hC) fun i j _ hj _ => by
        rw [if_neg (by omega)]
  | lower =>
    have key := ends_forUp_inv (lo := 0) (hi := C.cols) (h := h)
      (body := trmmRightColF mulD A .lower d C)
      (fun m h' => C.Becomes h h' fun i j =>
        if j < m then rightElemF mulD .lower d C.cols a c i j else c i j) (Nat.zero_le _) ?_ ?_
    · refine Ends.mono key fun _ h' hb => Mat.BecomesOn.congr hb fun i j _ hj _ => ?_
      rw [if_pos hj]
    · intro j _ hj h1 hb
      refine (trmmRightColF_ends mulD (c := c) hA hsq hr hu hAC hj hb ?_).mono fun _ h' hb' =>
        Mat.BecomesOn.congr hb' fun i k _ _ _ => ?_
      · intro i k hk
        rw [if_neg]
        rcases hk with rfl | hk
        · omega
        · have := ((mem_restOf hj).1 hk).2
          simp only [Triangle.flip, Triangle.region] at this
          omega
      · by_cases e : k = j
        · subst e; rw [if_pos rfl, if_pos (by omega)]
        · rw [if_neg e]
          by_cases e' : k < j
          · rw [if_pos e', if_pos (by omega)]
          · rw [if_neg e', if_neg (by omega)]
    · exact Mat.BecomesOn.congr (Mat.BecomesOn.refl hC) fun i j _ hj _ => by
        rw [if_neg (by omega)]

end StdBLAS

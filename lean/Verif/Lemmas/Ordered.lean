import Verif.Spec.Order
import Verif.Lemmas.Blas2
import Verif.Lemmas.Blas3Cols

/-! # Products as sums in a fixed order, without algebraic laws -/

namespace StdBLAS
variable {α : Type} {h h0 : Heap α}

theorem leftSum_congr [Add α] {s : α} {n : Nat} {t t' : Nat → α} (e : ∀ k, k < n → t k = t' k) :
    leftSum s n t = leftSum s n t' := by
  induction n with
  | zero => rfl
  | succ n ih => rw [leftSum, leftSum, ih fun k hk => e k (by omega), e n (by omega)]

theorem foldl_range'_leftSum [Add α] (s : α) (lo n : Nat) (t : Nat → α) :
    (List.range' lo n).foldl (fun s k => s + t k) s = leftSum s n fun k => t (lo + k) := by
  induction n with
  | zero => rfl
  | succ n ih =>
    rw [← List.range'_append_1 (m := n) (n := 1), List.foldl_append, ih]
    rfl

theorem foldl_range_leftSum [Add α] (s : α) (n : Nat) (t : Nat → α) :
    (List.range n).foldl (fun s k => s + t k) s = leftSum s n t := by
  rw [List.range_eq_range', foldl_range'_leftSum]
  exact leftSum_congr fun k _ => by rw [Nat.zero_add]

theorem foldl_up_leftSum [Add α] (s : α) (n : Nat) (t : Nat → α) :
    (List.range' 0 n).foldl (fun s k => s + t k) s = leftSum s n t := by
  rw [← List.range_eq_range', foldl_range_leftSum]

/-- State of an ordered accumulation: row `r` has received its first `len r` terms. -/
def Vec.Seq [Add α] (z : Vec) (h0 h : Heap α) (u : Nat → α) (t : Nat → Nat → α)
    (len : Nat → Nat) : Prop :=
  z.Becomes h0 h fun r => leftSum (u r) (len r) (t r)

theorem Vec.Seq.start [Add α] {z : Vec} {u : Nat → α} {t : Nat → Nat → α}
    (hz : z.Becomes h0 h u) {len : Nat → Nat} (e : ∀ r, r < z.ext → len r = 0) :
    z.Seq h0 h u t len :=
  hz.congr fun i hi => by rw [e i hi]; rfl

theorem Vec.Seq.conv [Add α] {z : Vec} {u : Nat → α} {t : Nat → Nat → α} {len len' : Nat → Nat}
    (hz : z.Seq h0 h u t len) (e : ∀ r, r < z.ext → len r = len' r) : z.Seq h0 h u t len' :=
  Vec.Becomes.congr hz fun i hi => by rw [e i hi]

theorem Vec.Seq.congrBase [Add α] {z : Vec} {u u' : Nat → α} {t : Nat → Nat → α}
    {len : Nat → Nat} (hz : z.Seq h0 h u t len) (e : ∀ k, k < z.ext → u k = u' k) :
    z.Seq h0 h u' t len :=
  Vec.Becomes.congr hz fun k hk => by rw [e k hk]

theorem Vec.Seq.onlyChanges [Add α] {z : Vec} {u : Nat → α} {t : Nat → Nat → α}
    {len : Nat → Nat} (hz : z.Seq h0 h u t len) : OnlyChanges z.Cell h0 h := hz.2

theorem Vec.Seq.add [Add α] {z : Vec} {u : Nat → α} {t : Nat → Nat → α} {len : Nat → Nat}
    (hz : z.Seq h0 h u t len) (hu : z.Unique) {r : Nat} (hr : r < z.ext) {v : α}
    (hv : v = t r (len r)) (len' : Nat → Nat) (h1 : len' r = len r + 1)
    (h2 : ∀ k, k < z.ext → k ≠ r → len' k = len k) :
    Ends (z.addTo r v) h fun _ h' => z.Seq h0 h' u t len' := by
  refine (Vec.Becomes.addTo hz hu hr v).mono fun _ h' hb => ?_
  refine hb.congr fun k hk => ?_
  by_cases ek : k = r
  · subst ek; rw [Function.update_self, h1, hv]; rfl
  · rw [Function.update_of_ne ek, h2 k hk ek]

theorem Vec.Seq.val [Add α] {z : Vec} {u : Nat → α} {t : Nat → Nat → α} {len : Nat → Nat}
    (hz : z.Seq h0 h u t len) {r : Nat} (hr : r < z.ext) (h1 : len r = 0)
    {Q : α → Heap α → Prop} : Ends (z.get r) h Q ↔ Q (u r) h := by
  rw [hz.1.get_iff hr, h1]; rfl

theorem Vec.Seq.setBase [Add α] {z : Vec} {u : Nat → α} {t : Nat → Nat → α} {len : Nat → Nat}
    (hz : z.Seq h0 h u t len) (hu : z.Unique) {r : Nat} (hr : r < z.ext) (h1 : len r = 0) (v : α)
    (u' : Nat → α) (e : ∀ k, k < z.ext → u' k = Function.update u r v k) :
    Ends (z.set r v) h fun _ h' => z.Seq h0 h' u' t len := by
  refine (Vec.Becomes.set hz hu hr v).mono fun _ h' hb => ?_
  refine Vec.Becomes.congr hb fun k hk => ?_
  rw [e k hk]
  by_cases ek : k = r
  · subst ek
    simp only [Function.update_self, h1]
    rfl
  · rw [Function.update_of_ne ek, Function.update_of_ne ek]

theorem symSeq_lower [Add α] [Mul α] {A : MatV α} {x : VecV α} {z : Vec}
    {a s : Nat → Nat → α} {f u : Nat → α} (k dg : α → α) {h1 : Heap α}
    (hA : A.HoldsOn h0 Triangle.lower.region a) (hx : x.Holds h0 f)
    (hsq : A.rows = A.cols) (hext : A.rows = z.ext) (hxe : A.cols ≤ x.ext) (hu : z.Unique)
    (hAz : Apart (A.toMat.CellOn Triangle.lower.region) z.Cell) (hxz : Apart x.toVec.Cell z.Cell)
    (hd : ∀ j, s j j = dg (a j j)) (hlo : ∀ i j, j < i → s i j = a i j)
    (hup : ∀ i j, j < i → s j i = k (a i j)) (hz : z.Becomes h0 h1 u) :
    Ends (forUp 0 A.cols fun j => do
      let d ← A.get j j
      let b ← x.get j
      z.addTo j (dg d * b)
      forUp (j + 1) A.rows fun i => do
        let aij ← A.get i j
        let xj ← x.get j
        z.addTo i (aij * xj)
        let xi ← x.get i
        z.addTo j (k aij * xi)) h1 fun _ h' =>
      z.Becomes h0 h' fun r => leftSum (u r) A.cols fun c => s r c * f c := by
  refine (ends_forUp_inv (fun j h' => z.Seq h0 h' u (fun r c => s r c * f c)
    (fun r => if r < j then A.cols else j)) (Nat.zero_le _) ?_ ?_).mono fun _ h' hh => ?_
  · intro j _ hj h' hh
    have hc := hh.onlyChanges
    have hA' := hA.of_onlyChanges hAz hc
    have hx' := hx.of_onlyChanges hxz hc
    rw [ends_bind, hA'.get_iff (by omega) hj (le_refl j), ends_bind, hx'.get_iff (by omega),
      ends_bind]
    refine (hh.add hu (r := j) (by omega) (by simp [hd])
      (fun r => if r < j then A.cols else if r = j then j + 1 else if r < j + 1 then j + 1 else j)
      (by simp) (fun r _ hr => ?_)).mono fun _ h2 hh2 => ?_
    · split_ifs <;> omega
    refine (ends_forUp_inv (fun i h' => z.Seq h0 h' u (fun r c => s r c * f c)
      (fun r => if r < j then A.cols else if r = j then i else if r < i then j + 1 else j))
      (by omega) ?_ hh2).mono fun _ h3 hh3 => hh3.conv fun r hr => by split_ifs <;> omega
    intro i hji hi h3 hh3
    have hc3 := hh3.onlyChanges
    have hA3 := hA.of_onlyChanges hAz hc3
    have hx3 := hx.of_onlyChanges hxz hc3
    rw [ends_bind, hA3.get_iff hi hj (by simp only [Triangle.region]; omega), ends_bind,
      hx3.get_iff (by omega), ends_bind]
    refine (hh3.add hu (r := i) (by omega) ?_
      (fun r => if r < j then A.cols else if r = j then i else if r < i + 1 then j + 1 else j)
      (by split_ifs <;> omega)
      (fun r _ hr => by split_ifs <;> omega)).mono fun _ h4 hh4 => ?_
    · rw [if_neg (by omega), if_neg (by omega), if_neg (by omega), hlo i j (by omega)]
    have hx4 := hx.of_onlyChanges hxz hh4.onlyChanges
    rw [ends_bind, hx4.get_iff (by omega)]
    refine hh4.add hu (r := j) (by omega) ?_ _ (by split_ifs <;> omega)
      (fun r _ hr => by split_ifs <;> omega)
    rw [if_neg (by omega), if_pos rfl, hup i j (by omega)]
  · exact Vec.Seq.start hz fun r _ => by split_ifs <;> omega
  · exact hh.congr fun r hr => by beta_reduce; rw [if_pos (by omega)]

theorem symSeq_upper [Add α] [Mul α] {A : MatV α} {x : VecV α} {z : Vec}
    {a s : Nat → Nat → α} {f u : Nat → α} (k dg : α → α) {h1 : Heap α}
    (hA : A.HoldsOn h0 Triangle.upper.region a) (hx : x.Holds h0 f)
    (hsq : A.rows = A.cols) (hext : A.rows = z.ext) (hxe : A.cols ≤ x.ext) (hu : z.Unique)
    (hAz : Apart (A.toMat.CellOn Triangle.upper.region) z.Cell) (hxz : Apart x.toVec.Cell z.Cell)
    (hd : ∀ j, s j j = dg (a j j)) (hlo : ∀ i j, i < j → s i j = a i j)
    (hup : ∀ i j, i < j → s j i = k (a i j)) (hz : z.Becomes h0 h1 u) :
    Ends (forUp 0 A.cols fun j => do
      forUp 0 j fun i => do
        let aij ← A.get i j
        let xj ← x.get j
        z.addTo i (aij * xj)
        let xi ← x.get i
        z.addTo j (k aij * xi)
      let d ← A.get j j
      let b ← x.get j
      z.addTo j (dg d * b)) h1 fun _ h' =>
      z.Becomes h0 h' fun r => leftSum (u r) A.cols fun c => s r c * f c := by
  refine (ends_forUp_inv (fun j h' => z.Seq h0 h' u (fun r c => s r c * f c)
    (fun r => if r < j then j else 0)) (Nat.zero_le _) ?_ ?_).mono fun _ h' hh => ?_
  · intro j _ hj h' hh
    rw [ends_bind]
    refine (ends_forUp_inv (fun i h' => z.Seq h0 h' u (fun r c => s r c * f c)
      (fun r => if r < i then j + 1 else if r < j then j else if r = j then i else 0)) (by omega) ?_
      (hh.conv fun r _ => by split_ifs <;> omega)).mono ?_
    · intro i _ hi h3 hh3
      have hc3 := hh3.onlyChanges
      have hA3 := hA.of_onlyChanges hAz hc3
      have hx3 := hx.of_onlyChanges hxz hc3
      rw [ends_bind, hA3.get_iff (by omega) hj (by simp only [Triangle.region]; omega), ends_bind,
        hx3.get_iff (by omega), ends_bind]
      refine (hh3.add hu (r := i) (by omega) ?_
        (fun r => if r < i + 1 then j + 1 else if r < j then j else if r = j then i else 0)
        (by split_ifs <;> omega)
        (fun r _ hr => by split_ifs <;> omega)).mono fun _ h4 hh4 => ?_
      · rw [if_neg (by omega), if_pos (by omega), hlo i j (by omega)]
      have hx4 := hx.of_onlyChanges hxz hh4.onlyChanges
      rw [ends_bind, hx4.get_iff (by omega)]
      refine hh4.add hu (r := j) (by omega) ?_ _ (by split_ifs <;> omega)
        (fun r _ hr => by split_ifs <;> omega)
      rw [if_neg (by omega), if_neg (by omega), if_pos rfl, hup i j (by omega)]
    · intro _ h2 hh2
      have hc := hh2.onlyChanges
      have hA' := hA.of_onlyChanges hAz hc
      have hx' := hx.of_onlyChanges hxz hc
      rw [ends_bind, hA'.get_iff (by omega) hj (le_refl j), ends_bind, hx'.get_iff (by omega)]
      refine hh2.add hu (r := j) (by omega) ?_ _ (by split_ifs <;> omega)
        (fun r _ hr => by split_ifs <;> omega)
      rw [if_neg (by omega), if_neg (by omega), if_pos rfl, hd]
  · exact Vec.Seq.start hz fun r _ => by split_ifs <;> omega
  · exact hh.congr fun r hr => by beta_reduce; rw [if_pos (by omega)]

theorem symvAcc_seq [Add α] [Mul α] {A : MatV α} {t : Triangle} {x : VecV α} {z : Vec}
    {a : Nat → Nat → α} {f u : Nat → α} {h1 : Heap α}
    (hA : A.HoldsOn h0 t.region a) (hx : x.Holds h0 f)
    (hsq : A.rows = A.cols) (hext : A.rows = z.ext) (hxe : A.cols ≤ x.ext) (hu : z.Unique)
    (hAz : Apart (A.toMat.CellOn t.region) z.Cell) (hxz : Apart x.toVec.Cell z.Cell)
    (hz : z.Becomes h0 h1 u) :
    Ends (symvAcc A t x z) h1 fun _ h' =>
      z.Becomes h0 h' fun r => leftSum (u r) A.cols fun c => symOf t a r c * f c := by
  cases t with
  | lower =>
    refine symSeq_lower id id hA hx hsq hext hxe hu hAz hxz ?_ ?_ ?_ hz
    · intro j; unfold symOf; split <;> rfl
    · intro i j hij; unfold symOf; rw [if_pos]; simp only [Triangle.region]; omega
    · intro i j hij; unfold symOf; rw [if_neg]; rfl; simp only [Triangle.region]; omega
  | upper =>
    refine symSeq_upper id id hA hx hsq hext hxe hu hAz hxz ?_ ?_ ?_ hz
    · intro j; unfold symOf; split <;> rfl
    · intro i j hij; unfold symOf; rw [if_pos]; simp only [Triangle.region]; omega
    · intro i j hij; unfold symOf; rw [if_neg]; rfl; simp only [Triangle.region]; omega

theorem hemvAcc_seq [Add α] [Mul α] [ConjOps α] {A : MatV α} {t : Triangle}
    {x : VecV α} {z : Vec} {a : Nat → Nat → α} {f u : Nat → α} {h1 : Heap α}
    (hA : A.HoldsOn h0 t.region a) (hx : x.Holds h0 f)
    (hsq : A.rows = A.cols) (hext : A.rows = z.ext) (hxe : A.cols ≤ x.ext) (hu : z.Unique)
    (hAz : Apart (A.toMat.CellOn t.region) z.Cell) (hxz : Apart x.toVec.Cell z.Cell)
    (hz : z.Becomes h0 h1 u) :
    Ends (hemvAcc A t x z) h1 fun _ h' =>
      z.Becomes h0 h' fun r => leftSum (u r) A.cols fun c => hermOf t a r c * f c := by
  cases t with
  | lower =>
    refine symSeq_lower ConjOps.conj ConjOps.re hA hx hsq hext hxe hu hAz hxz ?_ ?_ ?_ hz
    · intro j; unfold hermOf; rw [if_pos rfl]
    · intro i j hij; unfold hermOf; rw [if_neg (by omega), if_pos]; simp only [Triangle.region]; omega
    · intro i j hij; unfold hermOf; rw [if_neg (by omega), if_neg]; simp only [Triangle.region]; omega
  | upper =>
    refine symSeq_upper ConjOps.conj ConjOps.re hA hx hsq hext hxe hu hAz hxz ?_ ?_ ?_ hz
    · intro j; unfold hermOf; rw [if_pos rfl]
    · intro i j hij; unfold hermOf; rw [if_neg (by omega), if_pos]; simp only [Triangle.region]; omega
    · intro i j hij; unfold hermOf; rw [if_neg (by omega), if_neg]; simp only [Triangle.region]; omega

theorem triTerm_of_region [Mul α] {t : Triangle} {d : Diag} {a : Nat → Nat → α} {f : Nat → α}
    {r c : Nat} (hr : triRegion t d r c) : triTerm d a f r c = a r c * f c := by
  unfold triTerm
  rw [if_neg]
  rintro ⟨hd, e⟩
  have := hr.2 hd
  omega

theorem triTerm_unit [Mul α] {a : Nat → Nat → α} {f : Nat → α} {r : Nat} :
    triTerm .implicitUnit a f r r = f r := by
  unfold triTerm; rw [if_pos ⟨rfl, rfl⟩]

theorem trmvAcc_seq [Add α] [Mul α] {A : MatV α} {t : Triangle} {d : Diag} {x : VecV α}
    {z : Vec} {a : Nat → Nat → α} {f u : Nat → α} {h1 : Heap α}
    (hA : A.HoldsOn h0 (triRegion t d) a) (hx : x.Holds h0 f)
    (hsq : A.rows = A.cols) (hext : A.rows = z.ext) (hxe : A.cols ≤ x.ext) (hu : z.Unique)
    (hAz : Apart (A.toMat.CellOn (triRegion t d)) z.Cell) (hxz : Apart x.toVec.Cell z.Cell)
    (hz : z.Becomes h0 h1 u) :
    Ends (trmvAcc A t d x z) h1 fun _ h' =>
      z.Becomes h0 h' fun r => triSeq t d A.cols a f (u r) r := by
  unfold trmvAcc
  cases t with
  | lower =>
    refine (ends_forUp_inv (fun j h' => z.Seq h0 h' u (fun r c => triTerm d a f r c)
      (fun r => if r < j then r + 1 else j)) (Nat.zero_le _) ?_ ?_).mono fun _ h' hh => ?_
    · intro j _ hj h' hh
      simp only
      rw [ends_bind]
      refine (ends_forUp_inv (fun i h' => z.Seq h0 h' u (fun r c => triTerm d a f r c)
        (fun r => if r < j then r + 1 else
          if (if d = .explicit then j else j + 1) ≤ r ∧ r < i then j + 1 else j))
        (by split_ifs <;> omega) ?_ (hh.conv fun r _ => by split_ifs <;> omega)).mono ?_
      · intro i hji hi h3 hh3
        have hA3 := hA.of_onlyChanges hAz hh3.onlyChanges
        have hx3 := hx.of_onlyChanges hxz hh3.onlyChanges
        have hij : j ≤ i := by split_ifs at hji <;> omega
        have hreg : triRegion .lower d i j := by
          refine ⟨by simp only [Triangle.region]; omega, ?_⟩
          rintro rfl; simp at hji; omega
        rw [ends_bind, hA3.get_iff hi hj hreg, ends_bind, hx3.get_iff (by omega)]
        refine hh3.add hu (r := i) (by omega) ?_ _ ?_ ?_
        · rw [if_neg (by omega), if_neg (by omega), triTerm_of_region hreg]
        · rw [if_neg (show ¬ i < j by omega), if_neg (show ¬ i < j by omega),
            if_pos (show _ ≤ i ∧ i < i + 1 from ⟨hji, by omega⟩),
            if_neg (show ¬ (_ ≤ i ∧ i < i) by omega)]
        · intro r _ hr
          by_cases c1 : r < j
          · rw [if_pos c1, if_pos c1]
          · rw [if_neg c1, if_neg c1]
            by_cases c2 : (if d = .explicit then j else j + 1) ≤ r ∧ r < i
            · rw [if_pos (by omega), if_pos c2]
            · rw [if_neg (by omega), if_neg c2]
      · intro _ h2 hh2
        cases d with
        | explicit =>
          simp only [if_true, ends_pure] at hh2 ⊢
          exact hh2.conv fun r hr => by split_ifs <;> omega
        | implicitUnit =>
          simp only [reduceCtorEq, if_false] at hh2 ⊢
          have hx2 := hx.of_onlyChanges hxz hh2.onlyChanges
          rw [ends_bind, hx2.get_iff (by omega)]
          refine hh2.add hu (r := j) (by omega) ?_ _ (by split_ifs <;> omega)
            (fun r _ hr => by split_ifs <;> omega)
          rw [if_neg (by omega), if_neg (by omega), triTerm_unit]
    · exact Vec.Seq.start hz fun r _ => by split_ifs <;> omega
    · exact hh.congr fun r hr => by simp only [triSeq]; rw [if_pos (by omega)]
  | upper =>
    refine (ends_forUp_inv (fun j h' => z.Seq h0 h' u (fun r c => triTerm d a f r (r + c))
      (fun r => j - r)) (Nat.zero_le _) ?_ ?_).mono fun _ h' hh => ?_
    · intro j _ hj h' hh
      simp only
      rw [ends_bind]
      refine (ends_forUp_inv (fun i h' => z.Seq h0 h' u (fun r c => triTerm d a f r (r + c))
        (fun r => if r < i then j + 1 - r else j - r))
        (by split_ifs <;> omega) ?_ (hh.conv fun r _ => by split_ifs <;> omega)).mono ?_
      · intro i hji hi h3 hh3
        have hA3 := hA.of_onlyChanges hAz hh3.onlyChanges
        have hx3 := hx.of_onlyChanges hxz hh3.onlyChanges
        have hij : i ≤ j := by split_ifs at hi <;> omega
        have hreg : triRegion .upper d i j := by
          refine ⟨by simp only [Triangle.region]; omega, ?_⟩
          rintro rfl; simp at hi; omega
        rw [ends_bind, hA3.get_iff (by omega) hj hreg, ends_bind, hx3.get_iff (by omega)]
        refine hh3.add hu (r := i) (by omega) ?_ _ (by split_ifs <;> omega)
          (fun r _ hr => by split_ifs <;> omega)
        rw [if_neg (by omega), show i + (j - i) = j by omega, triTerm_of_region hreg]
      · intro _ h2 hh2
        cases d with
        | explicit =>
          simp only [if_true, ends_pure] at hh2 ⊢
          exact hh2.conv fun r hr => by split_ifs <;> omega
        | implicitUnit =>
          simp only [reduceCtorEq, if_false] at hh2 ⊢
          have hx2 := hx.of_onlyChanges hxz hh2.onlyChanges
          rw [ends_bind, hx2.get_iff (by omega)]
          refine hh2.add hu (r := j) (by omega) ?_ _ (by split_ifs <;> omega)
            (fun r _ hr => by split_ifs <;> omega)
          rw [if_neg (by omega), show j + (j - j) = j by omega, triTerm_unit]
    · exact Vec.Seq.start hz fun r _ => by omega
    · exact hh

theorem trmvInPlace_seq [Add α] [Mul α] {A : MatV α} {t : Triangle} {d : Diag} {y : Vec}
    {a : Nat → Nat → α} {f : Nat → α}
    (hA : A.HoldsOn h (triRegion t d) a) (hy : y.Holds h f)
    (hsq : A.rows = A.cols) (hext : A.rows = y.ext) (hu : y.Unique)
    (hAy : Apart (A.toMat.CellOn (triRegion t d)) y.Cell) :
    Ends (trmvInPlace A t d y) h fun _ h' =>
      y.Becomes h h' fun r => triSeqInPlace t A.cols a f
        (if d = .explicit then f r * a r r else f r) r := by
  unfold trmvInPlace
  cases t with
  | upper =>
    refine (ends_forUp_inv (fun j h' => y.Seq h h'
      (fun r => if r < j then (if d = .explicit then f r * a r r else f r) else f r)
      (fun r k => a r (r + 1 + k) * f (r + 1 + k)) (fun r => j - 1 - r))
      (Nat.zero_le _) ?_ ?_).mono ?_
    · intro j _ hj h1 hh
      rw [ends_bind, hh.val (by omega) (by omega), if_neg (by omega), ends_bind]
      refine (ends_forUp_inv (fun i h' => y.Seq h h'
        (fun r => if r < j then (if d = .explicit then f r * a r r else f r) else f r)
        (fun r k => a r (r + 1 + k) * f (r + 1 + k))
        (fun r => if r < i then j - r else j - 1 - r)) (Nat.zero_le _) ?_
        (hh.conv fun r _ => by rw [if_neg (by omega)])).mono ?_
      · intro i _ hi h2 hh2
        have hA2 := hA.of_onlyChanges hAy hh2.onlyChanges
        rw [ends_bind, hA2.get_iff (by omega) hj ⟨by simp only [Triangle.region]; omega, by omega⟩]
        refine hh2.add hu (r := i) (by omega) ?_ _ (by split_ifs <;> omega)
          (fun r _ hr => by split_ifs <;> omega)
        rw [if_neg (by omega), show i + 1 + (j - 1 - i) = j by omega]
      · intro _ h2 hh2
        have e2 := hh2.conv (len' := fun r => j + 1 - 1 - r) fun r _ => by split_ifs <;> omega
        have hA2 := hA.of_onlyChanges hAy hh2.onlyChanges
        cases d with
        | explicit =>
          simp only [if_true] at e2 ⊢
          rw [ends_bind, e2.val (by omega) (by omega), if_neg (by omega), ends_bind,
            hA2.get_iff (by omega) hj ⟨le_refl j, by simp⟩]
          refine e2.setBase hu (by omega) (by omega) _ _ fun k hk => ?_
          by_cases ek : k = j
          · subst ek; simp
          · rw [Function.update_of_ne ek]
            by_cases hk' : k < j
            · rw [if_pos hk', if_pos (by omega)]
            · rw [if_neg hk', if_neg (by omega)]
        | implicitUnit =>
          simp only [reduceCtorEq, if_false, ends_pure] at e2 ⊢
          refine e2.congrBase fun k hk => ?_
          rw [ite_self, ite_self]
    · exact Vec.Seq.start ((Vec.Becomes.refl hy).congr fun i _ => by rw [if_neg (by omega)])
        (fun r _ => by omega)
    · intro _ h' hh
      exact Vec.Becomes.congr hh fun r hr => by simp only [triSeqInPlace]; rw [if_pos (by omega)]
  | lower =>
    refine (ends_forUp_inv (fun k h' => y.Seq h h'
      (fun r => if A.cols ≤ r + k then (if d = .explicit then f r * a r r else f r) else f r)
      (fun r c => a r (r - 1 - c) * f (r - 1 - c)) (fun r => r - (A.cols - k)))
      (Nat.zero_le _) ?_ ?_).mono ?_
    · intro k _ hk h1 hh
      simp only
      generalize hjk : A.cols - (k + 1) = j
      have hj : j < A.cols := by omega
      rw [ends_bind, hh.val (by omega) (by omega), if_neg (by omega), ends_bind]
      refine (ends_forUp_inv (fun i h' => y.Seq h h'
        (fun r => if A.cols ≤ r + k then (if d = .explicit then f r * a r r else f r) else f r)
        (fun r c => a r (r - 1 - c) * f (r - 1 - c))
        (fun r => if r < i then r - j else r - (A.cols - k)))
        (by omega) ?_ (hh.conv fun r _ => by split_ifs <;> omega)).mono ?_
      · intro i _ hi h2 hh2
        have hA2 := hA.of_onlyChanges hAy hh2.onlyChanges
        rw [ends_bind, hA2.get_iff (by omega) hj ⟨by simp only [Triangle.region]; omega, by omega⟩]
        refine hh2.add hu (r := i) (by omega) ?_ _ (by split_ifs <;> omega)
          (fun r _ hr => by split_ifs <;> omega)
        rw [if_neg (by omega), show i - 1 - (i - (A.cols - k)) = j by omega]
      · intro _ h2 hh2
        have e2 := hh2.conv (len' := fun r => r - j) fun r _ => by split_ifs <;> omega
        have hA2 := hA.of_onlyChanges hAy hh2.onlyChanges
        cases d with
        | explicit =>
          simp only [if_true] at e2 ⊢
          rw [ends_bind, e2.val (by omega) (by omega), if_neg (by omega), ends_bind,
            hA2.get_iff (by omega) hj ⟨le_refl j, by simp⟩]
          refine e2.setBase hu (by omega) (by omega) _ _ fun r hr => ?_
          by_cases ek : r = j
          · subst ek; rw [if_pos (by omega)]; simp
          · rw [Function.update_of_ne ek]
            by_cases hk' : A.cols ≤ r + k
            · rw [if_pos hk', if_pos (by omega)]
            · rw [if_neg hk', if_neg (by omega)]
        | implicitUnit =>
          simp only [reduceCtorEq, if_false, ends_pure] at e2 ⊢
          refine e2.congrBase fun r hr => ?_
          rw [ite_self, ite_self]
    · exact Vec.Seq.start ((Vec.Becomes.refl hy).congr fun i hi => by rw [if_neg (by omega)])
        (fun r _ => by omega)
    · intro _ h' hh
      refine Vec.Becomes.congr hh fun r hr => ?_
      simp only [triSeqInPlace]
      rw [if_pos (by omega), show r - (A.cols - A.cols) = r by omega]

theorem trmmColInPlace_seq [Add α] [Mul α] {A : MatV α} {t : Triangle} {d : Diag} {y : Vec}
    {a : Nat → Nat → α} {f : Nat → α}
    (hA : A.HoldsOn h (triRegion t d) a) (hy : y.Holds h f)
    (hsq : A.rows = A.cols) (hext : A.rows = y.ext) (hu : y.Unique)
    (hAy : Apart (A.toMat.CellOn (triRegion t d)) y.Cell) :
    Ends (trmmColInPlace A t d y) h fun _ h' =>
      y.Becomes h h' fun r => triSeqInPlace t A.cols a f
        (if d = .explicit then a r r * f r else f r) r := by
  unfold trmmColInPlace
  cases t with
  | upper =>
    refine (ends_forUp_inv (fun j h' => y.Seq h h'
      (fun r => if r < j then (if d = .explicit then a r r * f r else f r) else f r)
      (fun r k => a r (r + 1 + k) * f (r + 1 + k)) (fun r => j - 1 - r))
      (Nat.zero_le _) ?_ ?_).mono ?_
    · intro j _ hj h1 hh
      rw [ends_bind]
      refine (ends_forUp_inv (fun i h' => y.Seq h h'
        (fun r => if r < j then (if d = .explicit then a r r * f r else f r) else f r)
        (fun r k => a r (r + 1 + k) * f (r + 1 + k))
        (fun r => if r < i then j - r else j - 1 - r)) (Nat.zero_le _) ?_
        (hh.conv fun r _ => by rw [if_neg (by omega)])).mono ?_
      · intro i _ hi h2 hh2
        have hA2 := hA.of_onlyChanges hAy hh2.onlyChanges
        rw [ends_bind, hA2.get_iff (by omega) (by omega)
          ⟨by simp only [Triangle.region]; omega, by omega⟩, ends_bind,
          hh2.val hj (by split_ifs <;> omega), if_neg (by omega)]
        refine hh2.add hu (r := i) (by omega) ?_ _ (by split_ifs <;> omega)
          (fun r _ hr => by split_ifs <;> omega)
        rw [if_neg (by omega), show i + 1 + (j - 1 - i) = j by omega]
      · intro _ h2 hh2
        have e2 := hh2.conv (len' := fun r => j + 1 - 1 - r) fun r _ => by split_ifs <;> omega
        have hA2 := hA.of_onlyChanges hAy hh2.onlyChanges
        cases d with
        | explicit =>
          simp only [if_true] at e2 ⊢
          rw [ends_bind, hA2.get_iff (by omega) (by omega) ⟨le_refl j, by simp⟩, ends_bind,
            e2.val hj (by omega), if_neg (by omega)]
          refine e2.setBase hu (by omega) (by omega) _ _ fun k hk => ?_
          by_cases ek : k = j
          · subst ek; simp
          · rw [Function.update_of_ne ek]
            by_cases hk' : k < j
            · rw [if_pos hk', if_pos (by omega)]
            · rw [if_neg hk', if_neg (by omega)]
        | implicitUnit =>
          simp only [reduceCtorEq, if_false, ends_pure] at e2 ⊢
          refine e2.congrBase fun k hk => ?_
          rw [ite_self, ite_self]
    · exact Vec.Seq.start ((Vec.Becomes.refl hy).congr fun i _ => by rw [if_neg (by omega)])
        (fun r _ => by omega)
    · intro _ h' hh
      exact Vec.Becomes.congr hh fun r hr => by
        simp only [triSeqInPlace]; rw [if_pos (by omega), ← hext, hsq]
  | lower =>
    refine (ends_forDown_inv (fun m h' => y.Seq h h'
      (fun r => if m ≤ r then (if d = .explicit then a r r * f r else f r) else f r)
      (fun r c => a r (r - 1 - c) * f (r - 1 - c)) (fun r => r - m)) ?_ ?_).mono ?_
    · intro j hj h1 hh
      rw [ends_bind]
      refine (ends_forUp_inv (fun i h' => y.Seq h h'
        (fun r => if j + 1 ≤ r then (if d = .explicit then a r r * f r else f r) else f r)
        (fun r c => a r (r - 1 - c) * f (r - 1 - c))
        (fun r => if r < i then r - j else r - (j + 1)))
        (by omega) ?_ (hh.conv fun r _ => by split_ifs <;> omega)).mono ?_
      · intro i _ hi h2 hh2
        have hA2 := hA.of_onlyChanges hAy hh2.onlyChanges
        rw [ends_bind, hA2.get_iff (by omega) (by omega)
          ⟨by simp only [Triangle.region]; omega, by omega⟩, ends_bind,
          hh2.val hj (by split_ifs <;> omega), if_neg (by omega)]
        refine hh2.add hu (r := i) (by omega) ?_ _ (by split_ifs <;> omega)
          (fun r _ hr => by split_ifs <;> omega)
        rw [if_neg (by omega), show i - 1 - (i - (j + 1)) = j by omega]
      · intro _ h2 hh2
        have e2 := hh2.conv (len' := fun r => r - j) fun r _ => by split_ifs; omega
        have hA2 := hA.of_onlyChanges hAy hh2.onlyChanges
        cases d with
        | explicit =>
          simp only [if_true] at e2 ⊢
          rw [ends_bind, hA2.get_iff (by omega) (by omega) ⟨le_refl j, by simp⟩, ends_bind,
            e2.val hj (by omega), if_neg (by omega)]
          refine e2.setBase hu (by omega) (by omega) _ _ fun r hr => ?_
          by_cases ek : r = j
          · subst ek; rw [if_pos (by omega)]; simp
          · rw [Function.update_of_ne ek]
            by_cases hk' : j + 1 ≤ r
            · rw [if_pos hk', if_pos (by omega)]
            · rw [if_neg hk', if_neg (by omega)]
        | implicitUnit =>
          simp only [reduceCtorEq, if_false, ends_pure] at e2 ⊢
          refine e2.congrBase fun r hr => ?_
          rw [ite_self, ite_self]
    · exact Vec.Seq.start ((Vec.Becomes.refl hy).congr fun i hi => by rw [if_neg (by omega)])
        (fun r _ => by omega)
    · intro _ h' hh
      refine Vec.Becomes.congr hh fun r hr => ?_
      simp only [triSeqInPlace]
      rw [if_pos (by omega), show r - 0 = r by omega]

theorem trmmLeftInPlace_seq [Add α] [Mul α] {A : MatV α} {t : Triangle} {d : Diag} {C : Mat}
    {a c : Nat → Nat → α}
    (hA : A.HoldsOn h (triRegion t d) a) (hC : C.Holds h c)
    (hsq : A.rows = A.cols) (hr : C.rows = A.rows) (hu : C.Unique)
    (hAC : Apart (A.toMat.CellOn (triRegion t d)) C.Cell) :
    Ends (trmmLeftInPlace A t d C) h fun _ h' =>
      C.Becomes h h' fun i j => triSeqInPlace t A.cols a (fun k => c k j)
        (if d = .explicit then a i i * c i j else c i j) i := by
  rw [trmmLeftInPlace_cols]
  refine (ends_cols (fun j v => ∀ i, i < C.rows → v i = triSeqInPlace t A.cols a (fun k => c k j)
      (if d = .explicit then a i i * c i j else c i j) i) h hu c ?_).mono ?_
  · intro j hj h1 hc he
    refine (trmmColInPlace_seq (hA.of_onlyChanges hAC hc) (y := C.col j) (f := fun i => c i j)
      (fun i hi => (he i hi).trans (hC i j hi hj trivial)) hsq hr.symm (hu.col hj)
      (fun b hb hb' => hAC b hb (Mat.col_cell hj hb'))).mono ?_
    intro _ h' hb
    exact ⟨_, hb, fun _ _ => rfl⟩
  · rintro _ h' ⟨f, hf, hP⟩
    exact Mat.BecomesOn.congr hf fun i j hi hj _ => hP j hj i hi

end StdBLAS

namespace StdBLAS
variable {α : Type}

theorem leftSum_add [Add α] (s : α) (m n : Nat) (t : Nat → α) :
    leftSum s (m + n) t = leftSum (leftSum s m t) n fun k => t (m + k) := by
  induction n with
  | zero => rfl
  | succ n ih => rw [← Nat.add_assoc, leftSum, leftSum, ih]

theorem foldl_range'_leftDiff [Sub α] (s : α) (lo n : Nat) (t : Nat → α) :
    (List.range' lo n).foldl (fun s k => s - t k) s = leftDiff s n fun k => t (lo + k) := by
  induction n with
  | zero => rfl
  | succ n ih =>
    rw [← List.range'_append_1 (m := n) (n := 1), List.foldl_append, ih]
    rfl

theorem leftDiff_congr [Sub α] {s : α} {n : Nat} {t t' : Nat → α} (e : ∀ k, k < n → t k = t' k) :
    leftDiff s n t = leftDiff s n t' := by
  induction n with
  | zero => rfl
  | succ n ih => rw [leftDiff, leftDiff, ih fun k hk => e k (by omega), e n (by omega)]

/-- The fold of the triangular products written out. -/
theorem triElem_eq [Add α] [Zero α] {t : Triangle} {d : Diag} {n i : Nat} (hi : i < n)
    (term : Nat → α) (one : α) :
    triElem t d n i term one =
      triElement (t = .lower) d n i term (if d = .explicit then term i else one) 0 := by
  unfold triElem triRow
  cases t <;> cases d <;>
    simp only [reduceCtorEq, if_true, if_false, decide_true, decide_false, triElement,
      foldl_range'_leftSum, Nat.sub_zero]
  · rw [show n - (i + 1) = n - 1 - i by omega]
  · rw [show n - i = 1 + (n - 1 - i) by omega, leftSum_add]
    exact leftSum_congr (s := 0 + term i) fun k _ => by rw [show i + (1 + k) = i + 1 + k by omega]
  · congr 1; exact leftSum_congr fun k _ => by rw [Nat.zero_add]
  · rw [leftSum, Nat.zero_add]; congr 1; exact leftSum_congr fun k _ => by rw [Nat.zero_add]

theorem subRow_eq [Sub α] [Mul α] [Div α] (t : Triangle) (d : Diag) (n : Nat) (a : Nat → Nat → α)
    (g v : Nat → α) (i : Nat) :
    subRow (· / ·) t d n a g v i = solveRow t d n i (fun k => a i k * v k) (g i) (a i i) := by
  unfold subRow solveRow restOf
  cases t <;> simp only [foldl_range'_leftDiff]
  · rw [show n - (i + 1) = n - 1 - i by omega]
  · simp only [Nat.zero_add]

end StdBLAS

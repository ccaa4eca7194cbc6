import Verif.Spec.Blocks
import Verif.Spec.Memory
import Verif.Lemmas.Blas1
import Verif.Lemmas.Blas3Cols

/-! # Lemmas about parts of vectors and matrices, and about splitting loops -/

namespace StdBLAS
variable {α ι σ : Type}

/-! ## Access -/

theorem VecV.slice_get {x : VecV α} {k m i : Nat} (hi : i < m) (hk : k + m ≤ x.ext) :
    (x.slice k m).get i = x.get (k + i) := by
  unfold VecV.get VecV.slice
  rw [if_pos hi, if_pos (by omega)]

theorem Vec.slice_get {x : Vec} {k m i : Nat} (hi : i < m) (hk : k + m ≤ x.ext) :
    (x.slice k m).get i = (x.get (k + i) : Prog α α) := by
  unfold Vec.get Vec.slice
  rw [if_pos hi, if_pos (by omega)]

theorem Vec.slice_set {x : Vec} {k m i : Nat} {v : α} (hi : i < m) (hk : k + m ≤ x.ext) :
    (x.slice k m).set i v = x.set (k + i) v := by
  unfold Vec.set Vec.slice
  rw [if_pos hi, if_pos (by omega)]

theorem Vec.slice_addTo [Add α] {x : Vec} {k m i : Nat} {v : α} (hi : i < m)
    (hk : k + m ≤ x.ext) : (x.slice k m).addTo i v = x.addTo (k + i) v := by
  unfold Vec.addTo
  rw [Vec.slice_get hi hk]
  simp only [Vec.slice_set hi hk]

theorem MatV.block_get {A : MatV α} {i0 j0 r c i j : Nat} (hi : i < r) (hj : j < c)
    (hr : i0 + r ≤ A.rows) (hc : j0 + c ≤ A.cols) :
    (A.block i0 j0 r c).get i j = A.get (i0 + i) (j0 + j) := by
  unfold MatV.get MatV.block
  rw [if_pos ⟨hi, hj⟩, if_pos ⟨by omega, by omega⟩]

theorem Mat.block_get {A : Mat} {i0 j0 r c i j : Nat} (hi : i < r) (hj : j < c)
    (hr : i0 + r ≤ A.rows) (hc : j0 + c ≤ A.cols) :
    (A.block i0 j0 r c).get i j = (A.get (i0 + i) (j0 + j) : Prog α α) := by
  unfold Mat.get Mat.block
  rw [if_pos ⟨hi, hj⟩, if_pos ⟨by omega, by omega⟩]

theorem Mat.block_set {A : Mat} {i0 j0 r c i j : Nat} {v : α} (hi : i < r) (hj : j < c)
    (hr : i0 + r ≤ A.rows) (hc : j0 + c ≤ A.cols) :
    (A.block i0 j0 r c).set i j v = A.set (i0 + i) (j0 + j) v := by
  unfold Mat.set Mat.block
  rw [if_pos ⟨hi, hj⟩, if_pos ⟨by omega, by omega⟩]

theorem Mat.block_addTo [Add α] {A : Mat} {i0 j0 r c i j : Nat} {v : α} (hi : i < r) (hj : j < c)
    (hr : i0 + r ≤ A.rows) (hc : j0 + c ≤ A.cols) :
    (A.block i0 j0 r c).addTo i j v = A.addTo (i0 + i) (j0 + j) v := by
  unfold Mat.addTo
  rw [Mat.block_get hi hj hr hc]
  simp only [Mat.block_set hi hj hr hc]

/-! ## Loops -/

theorem foldEach_map {κ : Type} (l : List κ) (g : κ → ι) (s : σ) (body : σ → ι → Prog α σ) :
    foldEach (l.map g) s body = foldEach l s (fun s k => body s (g k)) := by
  induction l generalizing s with
  | nil => rfl
  | cons i l ih =>
    change (body s (g i) >>= fun s' => foldEach (l.map g) s' body) =
      (body s (g i) >>= fun s' => foldEach l s' fun s k => body s (g k))
    simp only [ih]

theorem foldEach_congr {l : List ι} {f g : σ → ι → Prog α σ} (e : ∀ s, ∀ i ∈ l, f s i = g s i)
    (s : σ) : foldEach l s f = foldEach l s g := by
  induction l generalizing s with
  | nil => rfl
  | cons i l ih =>
    change (f s i >>= fun s' => foldEach l s' f) = (g s i >>= fun s' => foldEach l s' g)
    rw [e s i (by simp)]
    simp only [ih fun s k hk => e s k (by simp [hk])]

theorem range'_shift (k m : Nat) : List.range' k m = (List.range' 0 m).map (k + ·) := by
  rw [List.map_add_range', Nat.add_zero]

/-- A loop with a local variable, cut in two. -/
theorem foldEach_split {n k : Nat} (hk : k ≤ n) (s : σ) (body : σ → Nat → Prog α σ) :
    foldEach (List.range' 0 n) s body = (foldEach (List.range' 0 k) s body >>= fun s' =>
      foldEach (List.range' 0 (n - k)) s' fun s i => body s (k + i)) := by
  have e : List.range' 0 n = List.range' 0 k ++ List.range' k (n - k) := by
    have := List.range'_append_1 (s := 0) (m := k) (n := n - k)
    rw [Nat.zero_add, Nat.add_sub_cancel' hk] at this
    exact this.symm
  rw [e, foldEach_append]
  simp only [range'_shift k, foldEach_map]

/-- A loop cut in two. -/
theorem forUp_split {n k : Nat} (hk : k ≤ n) (body : Nat → Prog α Unit) :
    forUp 0 n body =
      (forUp 0 k body >>= fun _ => forUp 0 (n - k) fun i => body (k + i)) := by
  have e : List.range' 0 n = List.range' 0 k ++ List.range' k (n - k) := by
    have := List.range'_append_1 (s := 0) (m := k) (n := n - k)
    rw [Nat.zero_add, Nat.add_sub_cancel' hk] at this
    exact this.symm
  unfold forUp
  rw [Nat.sub_zero, Nat.sub_zero, Nat.sub_zero, e, forEach_append, range'_shift k, forEach_map]

theorem foldEach_split' {n k : Nat} (hk : k ≤ n) (s : σ) {body f g : σ → Nat → Prog α σ}
    (hf : ∀ s i, i < k → f s i = body s i)
    (hg : ∀ s i, i < n - k → g s i = body s (k + i)) :
    foldEach (List.range' 0 n) s body = (foldEach (List.range' 0 k) s f >>= fun s' =>
      foldEach (List.range' 0 (n - k)) s' g) := by
  have e1 : ∀ s, foldEach (List.range' 0 k) s f = foldEach (List.range' 0 k) s body :=
    foldEach_congr fun s i hi => hf s i (by rw [List.mem_range'_1] at hi; omega)
  have e2 : ∀ s, foldEach (List.range' 0 (n - k)) s g =
      foldEach (List.range' 0 (n - k)) s fun s i => body s (k + i) :=
    foldEach_congr fun s i hi => hg s i (by rw [List.mem_range'_1] at hi; omega)
  rw [foldEach_split hk, e1]
  simp only [e2]

theorem forUp_split' {n k : Nat} (hk : k ≤ n) {body f g : Nat → Prog α Unit}
    (hf : ∀ i, i < k → f i = body i) (hg : ∀ i, i < n - k → g i = body (k + i)) :
    forUp 0 n body = (forUp 0 k f >>= fun _ => forUp 0 (n - k) g) := by
  rw [forUp_split hk, forUp_congr (f := f) (g := body) fun i _ hi => hf i hi,
    forUp_congr (f := g) (g := fun i => body (k + i)) fun i _ hi => hg i hi]

/-! ## What parts hold -/

theorem VecV.Holds.slice {x : VecV α} {h : Heap α} {f : Nat → α} (hx : x.Holds h f) {k m : Nat}
    (hk : k + m ≤ x.ext) : (x.slice k m).Holds h fun i => f (k + i) :=
  fun i hi => hx (k + i) (by simp only [VecV.slice] at hi; omega)

theorem Vec.Holds.slice {x : Vec} {h : Heap α} {f : Nat → α} (hx : x.Holds h f) {k m : Nat}
    (hk : k + m ≤ x.ext) : (x.slice k m).Holds h fun i => f (k + i) :=
  fun i hi => hx (k + i) (by simp only [Vec.slice] at hi; omega)

theorem Vec.Alloc.slice {x : Vec} {h : Heap α} (hx : x.Alloc h) {k m : Nat}
    (hk : k + m ≤ x.ext) : (x.slice k m).Alloc h :=
  fun i hi => hx (k + i) (by simp only [Vec.slice] at hi; omega)

theorem Vec.Unique.slice {x : Vec} (hx : x.Unique) {k m : Nat} (hk : k + m ≤ x.ext) :
    (x.slice k m).Unique := fun i j hi hj e => by
  simp only [Vec.slice] at hi hj e
  have := hx (k + i) (k + j) (by omega) (by omega) e
  omega

theorem Vec.slice_cell {x : Vec} {k m p : Nat} (hk : k + m ≤ x.ext) (hp : (x.slice k m).Cell p) :
    x.Cell p := by
  obtain ⟨i, hi, e⟩ := hp
  exact ⟨k + i, by simp only [Vec.slice] at hi; omega, e⟩

theorem VecV.slice_cell {x : VecV α} {k m p : Nat} (hk : k + m ≤ x.ext)
    (hp : (x.slice k m).toVec.Cell p) : x.toVec.Cell p := by
  obtain ⟨i, hi, e⟩ := hp
  exact ⟨k + i, by simp only [VecV.slice] at hi; omega, e⟩

theorem MatV.Holds.block {A : MatV α} {h : Heap α} {a : Nat → Nat → α} (hA : A.Holds h a)
    {i0 j0 r c : Nat} (hr : i0 + r ≤ A.rows) (hc : j0 + c ≤ A.cols) :
    (A.block i0 j0 r c).Holds h fun i j => a (i0 + i) (j0 + j) :=
  fun i j hi hj _ => hA (i0 + i) (j0 + j) (by simp only [MatV.block] at hi; omega)
    (by simp only [MatV.block] at hj; omega) trivial

theorem Mat.Alloc.block {A : Mat} {h : Heap α} (hA : A.Alloc h)
    {i0 j0 r c : Nat} (hr : i0 + r ≤ A.rows) (hc : j0 + c ≤ A.cols) :
    (A.block i0 j0 r c).Alloc h :=
  fun i j hi hj _ => hA (i0 + i) (j0 + j) (by simp only [Mat.block] at hi; omega)
    (by simp only [Mat.block] at hj; omega) trivial

theorem Mat.Unique.block {A : Mat} (hA : A.Unique) {i0 j0 r c : Nat} (hr : i0 + r ≤ A.rows)
    (hc : j0 + c ≤ A.cols) : (A.block i0 j0 r c).Unique := by
  intro i j k l hi hj _ hk hl _ e
  simp only [Mat.block] at hi hj hk hl e
  have := hA (i0 + i) (j0 + j) (i0 + k) (j0 + l) (by omega) (by omega) trivial (by omega)
    (by omega) trivial e
  omega

theorem Mat.block_cell {A : Mat} {i0 j0 r c p : Nat} (hr : i0 + r ≤ A.rows)
    (hc : j0 + c ≤ A.cols) (hp : (A.block i0 j0 r c).Cell p) : A.Cell p := by
  obtain ⟨i, j, hi, hj, _, e⟩ := hp
  simp only [Mat.block] at hi hj
  exact ⟨i0 + i, j0 + j, by omega, by omega, trivial, e⟩

theorem MatV.block_cell {A : MatV α} {i0 j0 r c p : Nat} (hr : i0 + r ≤ A.rows)
    (hc : j0 + c ≤ A.cols) (hp : (A.block i0 j0 r c).toMat.Cell p) : A.toMat.Cell p := by
  obtain ⟨i, j, hi, hj, _, e⟩ := hp
  simp only [MatV.block] at hi hj
  exact ⟨i0 + i, j0 + j, by omega, by omega, trivial, e⟩

end StdBLAS

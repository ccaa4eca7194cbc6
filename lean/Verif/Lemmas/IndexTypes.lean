import Verif.Model.IndexTypes
import Verif.Lemmas.Blas3Cols

/-!
# When C++ integer arithmetic is the arithmetic of the natural numbers
-/

namespace StdBLAS
open IntTy
variable {α σ : Type}

/-- The number is representable in the type. -/
def IntTy.Fits (t : IntTy) (n : Nat) : Prop := (n : Int) ≤ t.max

instance (t : IntTy) (n : Nat) : Decidable (t.Fits n) := inferInstanceAs (Decidable (_ ≤ _))

theorem IntTy.Std.cases {t : IntTy} (h : t.Std) : ∃ s b, t = ⟨s, b⟩ ∧
    (b = 8 ∨ b = 16 ∨ b = 32 ∨ b = 64) := ⟨t.signed, t.bits, rfl, h⟩

theorem int_std : int.Std := Or.inr (Or.inr (Or.inl rfl))
theorem ptrdiff_std : ptrdiff.Std := Or.inr (Or.inr (Or.inr rfl))

theorem usual_std {t u : IntTy} (ht : t.Std) (hu : u.Std) : (usual t u).Std := by
  obtain ⟨s, b, rfl, hb⟩ := ht.cases
  obtain ⟨s', b', rfl, hb'⟩ := hu.cases
  rcases hb with rfl | rfl | rfl | rfl <;> rcases hb' with rfl | rfl | rfl | rfl <;>
    cases s <;> cases s' <;> unfold Std usual promote <;> decide

theorem common_std {t u : IntTy} (ht : t.Std) (hu : u.Std) : (common t u).Std := by
  unfold common; split
  · exact ht
  · exact usual_std ht hu

theorem usual_max {t u : IntTy} (ht : t.Std) (hu : u.Std) :
    t.max ≤ (usual t u).max ∧ u.max ≤ (usual t u).max := by
  obtain ⟨s, b, rfl, hb⟩ := ht.cases
  obtain ⟨s', b', rfl, hb'⟩ := hu.cases
  rcases hb with rfl | rfl | rfl | rfl <;> rcases hb' with rfl | rfl | rfl | rfl <;>
    cases s <;> cases s' <;> decide

theorem IntTy.Fits.usual_left {t u : IntTy} {n : Nat} (hf : t.Fits n) (ht : t.Std) (hu : u.Std) :
    (usual t u).Fits n := le_trans hf (usual_max ht hu).1
theorem IntTy.Fits.usual_right {t u : IntTy} {n : Nat} (hf : u.Fits n) (ht : t.Std) (hu : u.Std) :
    (usual t u).Fits n := le_trans hf (usual_max ht hu).2

theorem IntTy.Fits.common_left {t u : IntTy} {n : Nat} (hf : t.Fits n) (ht : t.Std) (hu : u.Std) :
    (common t u).Fits n := by
  unfold common; split
  · exact hf
  · exact hf.usual_left ht hu
theorem IntTy.Fits.common_right {t u : IntTy} {n : Nat} (hf : u.Fits n) (ht : t.Std) (hu : u.Std) :
    (common t u).Fits n := by
  unfold common; split
  · next e => rw [e]; exact hf
  · exact hf.usual_right ht hu

theorem IntTy.Fits.le {t : IntTy} {m n : Nat} (hf : t.Fits n) (h : m ≤ n) : t.Fits m :=
  le_trans (Int.ofNat_le.2 h) hf

theorem min_le_neg_one {t : IntTy} (ht : t.Std) (hs : t.signed = true) : t.min ≤ -1 := by
  obtain ⟨s, b, rfl, hb⟩ := ht.cases
  cases hs
  rcases hb with rfl | rfl | rfl | rfl <;> decide

theorem min_le_zero {t : IntTy} (ht : t.Std) : t.min ≤ 0 := by
  obtain ⟨s, b, rfl, hb⟩ := ht.cases
  rcases hb with rfl | rfl | rfl | rfl <;> cases s <;> decide

theorem one_le_max {t : IntTy} (ht : t.Std) : 1 ≤ t.max := by
  obtain ⟨s, b, rfl, hb⟩ := ht.cases
  rcases hb with rfl | rfl | rfl | rfl <;> cases s <;> decide

/-- Conversion does not change a representable value. -/
theorem cast_of_range {t : IntTy} (ht : t.Std) {z : Int} (h1 : t.min ≤ z) (h2 : z ≤ t.max) :
    t.cast z = z := by
  obtain ⟨s, b, rfl, hb⟩ := ht.cases
  rcases hb with rfl | rfl | rfl | rfl <;> cases s <;>
    simp only [IntTy.min, IntTy.max, IntTy.cast, Bool.false_eq_true, if_true, if_false, false_and,
      true_and] at * <;> norm_num at * <;> (try split) <;> omega

theorem cast_fits {t : IntTy} (ht : t.Std) {n : Nat} (h : t.Fits n) : t.cast n = n :=
  cast_of_range ht (le_trans (min_le_zero ht) (Int.natCast_nonneg n)) h

theorem arith_of_range {t : IntTy} (ht : t.Std) {z : Int} (h1 : t.min ≤ z) (h2 : z ≤ t.max) :
    (t.arith z : Prog α Int) = pure z := by
  unfold IntTy.arith
  by_cases hs : t.signed = true
  · rw [if_pos hs, if_pos ⟨h1, h2⟩]
  · rw [if_neg hs]
    have := cast_of_range ht h1 h2
    unfold IntTy.cast at this
    simp only [hs, Bool.false_eq_true, false_and, if_false] at this
    rw [this]

theorem arith_fits {t : IntTy} (ht : t.Std) {n : Nat} (h : t.Fits n) :
    (t.arith (n : Int) : Prog α Int) = pure (n : Int) :=
  arith_of_range ht (le_trans (min_le_zero ht) (Int.natCast_nonneg n)) h

theorem int_fits_one : int.Fits 1 := by decide

theorem add_one_fits {t : IntTy} (ht : t.Std) {n : Nat} (h : t.Fits (n + 1)) :
    (add t int (n : Int) 1 : Prog α Int) = pure ((n + 1 : Nat) : Int) := by
  have hu := usual_std ht int_std
  have h1 : (usual t int).Fits (n + 1) := h.usual_left ht int_std
  unfold IntTy.add
  rw [cast_fits hu (h1.le (Nat.le_succ n)),
    show ((1 : Int)) = ((1 : Nat) : Int) from rfl, cast_fits hu (h1.le (by omega)), ← Int.natCast_add,
    arith_fits hu h1]

theorem sub_one_fits {t u : IntTy} (ht : t.Std) (hu : u.Std) {n : Nat} (h : t.Fits (n + 1)) :
    (sub t u ((n + 1 : Nat) : Int) 1 : Prog α Int) = pure (n : Int) := by
  have hs := usual_std ht hu
  have h1 : (usual t u).Fits (n + 1) := h.usual_left ht hu
  unfold IntTy.sub
  rw [cast_fits hs h1,
    show ((1 : Int)) = ((1 : Nat) : Int) from rfl, cast_fits hs (h1.le (by omega)),
    show ((n + 1 : Nat) : Int) - ((1 : Nat) : Int) = (n : Int) by push_cast; omega,
    arith_fits hs (h1.le (Nat.le_succ n))]

theorem incr_fits {t : IntTy} (ht : t.Std) {n : Nat} (h : t.Fits (n + 1)) :
    (incr t (n : Int) : Prog α Int) = pure ((n + 1 : Nat) : Int) := by
  unfold IntTy.incr
  rw [add_one_fits ht h]
  funext hp
  change (Except.ok (t.cast _, hp) : Except Err _) = Except.ok (_, hp)
  rw [cast_fits ht h]

theorem decr_fits {t : IntTy} (ht : t.Std) {n : Nat} (h : t.Fits (n + 1)) :
    (decr t ((n + 1 : Nat) : Int) : Prog α Int) = pure (n : Int) := by
  unfold IntTy.decr
  rw [sub_one_fits ht int_std h]
  funext hp
  change (Except.ok (t.cast _, hp) : Except Err _) = Except.ok (_, hp)
  rw [cast_fits ht (h.le (Nat.le_succ n))]

/-- `0 - 1` in a signed type is -1. -/
theorem decr_zero {t : IntTy} (ht : t.Std) (hs : t.signed = true) :
    (decr t 0 : Prog α Int) = pure (-1) := by
  obtain ⟨s, b, rfl, hb⟩ := ht.cases
  cases hs
  rcases hb with rfl | rfl | rfl | rfl <;> rfl

theorem lt_fits {t u : IntTy} (ht : t.Std) (hu : u.Std) {m n : Nat} (hm : t.Fits m) (hn : u.Fits n) :
    lt t u m n = decide (m < n) := by
  have hs := usual_std ht hu
  unfold IntTy.lt
  rw [cast_fits hs (hm.usual_left ht hu), cast_fits hs (hn.usual_right ht hu)]
  simp

theorem le_fits {t u : IntTy} (ht : t.Std) (hu : u.Std) {m n : Nat} (hm : t.Fits m) (hn : u.Fits n) :
    le t u m n = decide (m ≤ n) := by
  have hs := usual_std ht hu
  unfold IntTy.le
  rw [cast_fits hs (hm.usual_left ht hu), cast_fits hs (hn.usual_right ht hu)]
  simp

/-! ## Loops -/

theorem pure_bind_prog {β γ : Type} (b : β) (f : β → Prog α γ) : (pure b >>= f : Prog α γ) = f b := rfl

/-- An ascending loop visits `lo, ..., hi - 1`. -/
theorem cFor_up {t : IntTy} (ht : t.Std) {cond : Int → Bool} {hi : Nat} (hf : t.Fits hi)
    (hcond : ∀ n : Nat, n ≤ hi → cond n = decide (n < hi)) {body : σ → Int → Prog α σ} :
    ∀ (fuel lo : Nat) (s : σ), lo ≤ hi → hi - lo < fuel →
      cFor cond (incr t) fuel (lo : Int) s body =
        foldEach (List.range' lo (hi - lo)) s fun s n => body s (n : Int) := by
  intro fuel
  induction fuel with
  | zero => intro lo s _ h; exact absurd h (Nat.not_lt_zero _)
  | succ fuel ih =>
    intro lo s hle h
    unfold cFor
    rw [hcond lo hle]
    by_cases hlt : lo < hi
    · rw [if_pos (by simpa using hlt), show hi - lo = (hi - (lo + 1)) + 1 by omega, List.range'_succ]
      change _ = (body s lo >>= fun s' => foldEach _ s' _)
      refine congrArg (fun f => (body s (lo : Int) >>= f)) ?_
      funext s'
      rw [incr_fits ht (hf.le hlt), pure_bind_prog]
      exact ih (lo + 1) s' hlt (by omega)
    · rw [if_neg (by simpa using hlt), show hi - lo = 0 by omega]; rfl

theorem foldEach_unit {ι : Type} (l : List ι) (body : ι → Prog α Unit) :
    (foldEach l () fun _ i => body i) = forEach l body := by
  induction l with
  | nil => rfl
  | cons i l ih =>
    change (body i >>= fun s => foldEach l s fun _ i => body i) = (body i >>= fun _ => forEach l body)
    refine congrArg (fun f => (body i >>= f)) ?_
    funext s
    exact ih

theorem cForU_up {t : IntTy} (ht : t.Std) {cond : Int → Bool} {lo hi : Nat} (hf : t.Fits hi)
    (hcond : ∀ n : Nat, n ≤ hi → cond n = decide (n < hi)) {body : Int → Prog α Unit}
    {fuel : Nat} (hle : lo ≤ hi) (hfuel : hi < fuel) :
    cForU cond (incr t) fuel (lo : Int) body = forUp lo hi fun n => body (n : Int) := by
  unfold cForU forUp
  rw [cFor_up ht hf hcond fuel lo () hle (by omega), foldEach_unit]

theorem forUp_body_congr {lo hi : Nat} {f g : Nat → Prog α Unit}
    (h : ∀ n, lo ≤ n → n < hi → f n = g n) : forUp lo hi f = forUp lo hi g :=
  forEach_congr fun n hn => by
    rw [List.mem_range'_1] at hn; exact h n hn.1 (by omega)

/-- A descending loop over a signed counter with condition `i >= 0` visits `n - 1, ..., 0`. -/
theorem cForU_down {t : IntTy} (ht : t.Std) (hs : t.signed = true) {cond : Int → Bool} {n : Nat}
    (hf : t.Fits n) (hcond : ∀ m : Nat, m ≤ n → cond m = true) (hneg : cond (-1) = false)
    {body : Int → Prog α Unit} :
    ∀ fuel, n < fuel → cForU cond (decr t) fuel ((n : Int) - 1) body =
      forDown n fun m => body (m : Int) := by
  unfold cForU forDown
  induction n with
  | zero =>
    intro fuel h
    obtain ⟨f, rfl⟩ : ∃ f, fuel = f + 1 := ⟨fuel - 1, by omega⟩
    unfold cFor
    rw [show ((0 : Nat) : Int) - 1 = -1 from rfl, hneg]; rfl
  | succ n ih =>
    intro fuel h
    obtain ⟨f, rfl⟩ : ∃ f, fuel = f + 1 := ⟨fuel - 1, by omega⟩
    unfold cFor
    rw [show ((n + 1 : Nat) : Int) - 1 = (n : Int) by push_cast; omega, hcond n (Nat.le_succ n),
      if_pos rfl, List.range_succ, List.reverse_append, List.reverse_singleton, List.singleton_append,
      forEach_cons]
    refine congrArg (fun g => (body (n : Int) >>= g)) ?_
    funext _
    have hd : (decr t (n : Int) : Prog α Int) = pure ((n : Int) - 1) := by
      cases n with
      | zero => exact decr_zero ht hs
      | succ m =>
        rw [decr_fits ht (hf.le (Nat.le_succ _))]
        congr 1
        push_cast; omega
    rw [hd, pure_bind_prog]
    exact ih (hf.le (Nat.le_succ n)) (fun m hm => hcond m (by omega)) f (by omega)

/-- A descending loop over a counter with condition `i > 0` visits `n, ..., 1`. -/
theorem cForU_down_pos {t : IntTy} (ht : t.Std) {cond : Int → Bool} {n : Nat}
    (hf : t.Fits n) (hcond : ∀ m : Nat, m ≤ n → cond m = decide (0 < m))
    {body : Int → Prog α Unit} :
    ∀ fuel, n < fuel → cForU cond (decr t) fuel (n : Int) body =
      forDown n fun m => body ((m + 1 : Nat) : Int) := by
  unfold cForU forDown
  induction n with
  | zero =>
    intro fuel h
    obtain ⟨f, rfl⟩ : ∃ f, fuel = f + 1 := ⟨fuel - 1, by omega⟩
    unfold cFor
    rw [hcond 0 le_rfl]; rfl
  | succ n ih =>
    intro fuel h
    obtain ⟨f, rfl⟩ : ∃ f, fuel = f + 1 := ⟨fuel - 1, by omega⟩
    unfold cFor
    rw [hcond (n + 1) le_rfl, if_pos (by simp), List.range_succ, List.reverse_append,
      List.reverse_singleton, List.singleton_append, forEach_cons]
    refine congrArg (fun g => (body ((n + 1 : Nat) : Int) >>= g)) ?_
    funext _
    rw [decr_fits ht hf, pure_bind_prog]
    exact ih (hf.le (Nat.le_succ n)) (fun m hm => hcond m (by omega)) f (by omega)

theorem forDown_body_congr {n : Nat} {f g : Nat → Prog α Unit}
    (h : ∀ m, m < n → f m = g m) : forDown n f = forDown n g :=
  forEach_congr fun m hm => h m (List.mem_range.1 (List.mem_reverse.1 hm))

theorem foldEach_body_congr {ι : Type} {l : List ι} {f g : σ → ι → Prog α σ}
    (h : ∀ i ∈ l, ∀ s, f s i = g s i) (s : σ) : foldEach l s f = foldEach l s g := by
  induction l generalizing s with
  | nil => rfl
  | cons i l ih =>
    change (f s i >>= fun s' => foldEach l s' f) = (g s i >>= fun s' => foldEach l s' g)
    rw [h i (by simp)]
    refine congrArg (fun k => (g s i >>= k)) ?_
    funext s'
    exact ih (fun j hj => h j (List.mem_cons_of_mem _ hj)) s'

/-! ## Element access -/

theorem MatV.at_fits {A : MatV α} {t : IntTy} (ht : t.Std) {i j : Nat} (hi : t.Fits i)
    (hj : t.Fits j) : A.at_ t i j = A.get i j := by
  unfold MatV.at_
  rw [cast_fits ht hi, cast_fits ht hj]
  simp

theorem Mat.at_fits {A : Mat} {t : IntTy} (ht : t.Std) {i j : Nat} (hi : t.Fits i)
    (hj : t.Fits j) : (A.at_ t i j : Prog α α) = A.get i j := by
  unfold Mat.at_
  rw [cast_fits ht hi, cast_fits ht hj]
  simp

theorem Mat.put_fits {A : Mat} {t : IntTy} (ht : t.Std) {i j : Nat} (hi : t.Fits i)
    (hj : t.Fits j) (v : α) : A.put t i j v = A.set i j v := by
  unfold Mat.put
  rw [cast_fits ht hi, cast_fits ht hj]
  simp

theorem Mat.addAt_fits [Add α] {A : Mat} {t : IntTy} (ht : t.Std) {i j : Nat} (hi : t.Fits i)
    (hj : t.Fits j) (v : α) : A.addAt t i j v = A.addTo i j v := by
  unfold Mat.addAt Mat.addTo
  rw [Mat.at_fits ht hi hj]
  simp only [Mat.put_fits ht hi hj]

theorem VecV.at_fits {x : VecV α} {t : IntTy} (ht : t.Std) {i : Nat} (hi : t.Fits i) :
    x.at_ t i = x.get i := by
  unfold VecV.at_
  rw [cast_fits ht hi]
  simp

theorem Vec.at_fits {x : Vec} {t : IntTy} (ht : t.Std) {i : Nat} (hi : t.Fits i) :
    (x.at_ t i : Prog α α) = x.get i := by
  unfold Vec.at_
  rw [cast_fits ht hi]
  simp

theorem Vec.put_fits {x : Vec} {t : IntTy} (ht : t.Std) {i : Nat} (hi : t.Fits i) (v : α) :
    x.put t i v = x.set i v := by
  unfold Vec.put
  rw [cast_fits ht hi]
  simp

/-! ## The start of the descending loops -/

/-- `ptrdiff_t i = n - 1` is `n - 1`, except for a 32-bit unsigned `size_type` and `n = 0`. -/
theorem start_ptrdiff {sz : IntTy} (hsz : sz.Std) {n : Nat} (hf : sz.Fits n)
    (hp : ptrdiff.Fits n) (h0 : n = 0 → sz ≠ uint32) :
    ∃ z, (sub sz int (n : Int) 1 : Prog α Int) = pure z ∧ ptrdiff.cast z = (n : Int) - 1 := by
  cases n with
  | zero =>
    obtain ⟨s, b, rfl, hb⟩ := hsz.cases
    rcases hb with rfl | rfl | rfl | rfl <;> cases s
    all_goals first
      | exact ⟨-1, rfl, by decide⟩
      | exact ⟨2 ^ 64 - 1, rfl, by decide⟩
      | exact absurd rfl (h0 rfl)
  | succ n =>
    refine ⟨n, sub_one_fits hsz int_std hf, ?_⟩
    rw [cast_fits ptrdiff_std (hp.le (Nat.le_succ n))]
    push_cast; omega

/-- `signed_index_type j = n - 1` is `n - 1`. -/
theorem start_signed {sg : IntTy} (hsg : sg.Std) (hs : sg.signed = true) {n : Nat}
    (hf : sg.Fits n) :
    ∃ z, (sub sg int (n : Int) 1 : Prog α Int) = pure z ∧ sg.cast z = (n : Int) - 1 := by
  cases n with
  | zero =>
    obtain ⟨s, b, rfl, hb⟩ := hsg.cases
    cases hs
    refine ⟨-1, ?_, ?_⟩ <;> rcases hb with rfl | rfl | rfl | rfl <;> rfl
  | succ n =>
    refine ⟨n, sub_one_fits hsg int_std hf, ?_⟩
    rw [cast_fits hsg (hf.le (Nat.le_succ n))]
    push_cast; omega

theorem ge_zero_cond {t : IntTy} (ht : t.Std) {m : Nat} (hf : t.Fits m) :
    le int t 0 (m : Int) = true := by
  have := le_fits int_std ht (m := 0) (n := m) (by decide) hf
  simpa using this

theorem ge_zero_neg {t : IntTy} (ht : t.Std) (hs : t.signed = true) :
    le int t 0 (-1) = false := by
  obtain ⟨s, b, rfl, hb⟩ := ht.cases
  cases hs
  rcases hb with rfl | rfl | rfl | rfl <;> rfl

theorem kUpper_unit_zero {sz : IntTy} (hsz : sz.Std) :
    (kUpper sz .implicitUnit 0 : Prog α Int) = pure (-1) := by
  obtain ⟨s, b, rfl, hb⟩ := hsz.cases
  rcases hb with rfl | rfl | rfl | rfl <;> cases s <;> rfl

end StdBLAS

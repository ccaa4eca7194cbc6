import Verif.Model.IndexTypesAll
import Verif.Lemmas.IndexRefine

/-!
# The other algorithms with C++ integer types refine those over natural numbers
-/

namespace StdBLAS
open IntTy
variable {α R σ : Type}

theorem makeUnsigned_std {t : IntTy} (ht : t.Std) : t.makeUnsigned.Std := ht

theorem IntTy.Fits.makeUnsigned {t : IntTy} {n : Nat} (hf : t.Fits n) (ht : t.Std) :
    t.makeUnsigned.Fits n := by
  refine le_trans hf ?_
  obtain ⟨s, b, rfl, hb⟩ := ht.cases
  rcases hb with rfl | rfl | rfl | rfl <;> cases s <;> decide

theorem IntTy.Fits.max {t : IntTy} {m n : Nat} (hm : t.Fits m) (hn : t.Fits n) :
    t.Fits (Max.max m n) := by
  rcases Nat.le_total m n with h | h
  · rw [Nat.max_eq_right h]; exact hn
  · rw [Nat.max_eq_left h]; exact hm

theorem common4_std {t u v w : IntTy} (ht : t.Std) (hu : u.Std) (hv : v.Std) (hw : w.Std) :
    (common4 t u v w).Std := common_std (common3_std ht hu hv) hw
theorem IntTy.Fits.common4_1 {t u v w : IntTy} {n : Nat} (hf : t.Fits n) (ht : t.Std) (hu : u.Std)
    (hv : v.Std) (hw : w.Std) : (common4 t u v w).Fits n :=
  (hf.common3_1 ht hu hv).common_left (common3_std ht hu hv) hw
theorem IntTy.Fits.common4_4 {t u v w : IntTy} {n : Nat} (hf : w.Fits n) (ht : t.Std) (hu : u.Std)
    (hv : v.Std) (hw : w.Std) : (common4 t u v w).Fits n :=
  hf.common_right (common3_std ht hu hv) hw

theorem eq_fits {t u : IntTy} (ht : t.Std) (hu : u.Std) {m n : Nat} (hm : t.Fits m) (hn : u.Fits n) :
    IntTy.eq t u m n = decide (m = n) := by
  have hs := usual_std ht hu
  unfold IntTy.eq
  rw [cast_fits hs (hm.usual_left ht hu), cast_fits hs (hn.usual_right ht hu)]
  simp

theorem eq_zero_fits {t : IntTy} (ht : t.Std) {m : Nat} (hm : t.Fits m) :
    IntTy.eq t int m 0 = decide (m = 0) := eq_fits ht int_std hm (n := 0) (by decide)

theorem add_one_fits' {t u : IntTy} (ht : t.Std) (hu : u.Std) {n : Nat} (h : t.Fits (n + 1)) :
    (add t u (n : Int) 1 : Prog α Int) = pure ((n + 1 : Nat) : Int) := by
  have hs := usual_std ht hu
  have h1 : (usual t u).Fits (n + 1) := h.usual_left ht hu
  unfold IntTy.add
  rw [cast_fits hs (h1.le (Nat.le_succ n)),
    show ((1 : Int)) = ((1 : Nat) : Int) from rfl, cast_fits hs (h1.le (by omega)), ← Int.natCast_add,
    arith_fits hs h1]

theorem sub_fits {t u : IntTy} (ht : t.Std) (hu : u.Std) {m n : Nat} (hm : t.Fits m) (hn : n ≤ m) :
    (sub t u (m : Int) (n : Int) : Prog α Int) = pure ((m - n : Nat) : Int) := by
  have hs := usual_std ht hu
  have h1 : (usual t u).Fits m := hm.usual_left ht hu
  unfold IntTy.sub
  rw [cast_fits hs h1, cast_fits hs (h1.le hn), ← Int.natCast_sub hn, arith_fits hs (h1.le (by omega))]

theorem Vec.addAt_fits [Add α] {y : Vec} {t : IntTy} (ht : t.Std) {i : Nat} (hi : t.Fits i) (v : α) :
    y.addAt t i v = y.addTo i v := by
  unfold Vec.addAt Vec.addTo
  rw [Vec.at_fits ht hi]
  simp only [Vec.put_fits ht hi]

theorem upTo_eq {t u : IntTy} (ht : t.Std) (hu : u.Std) {lo hi : Nat} (hf : t.Fits hi)
    (hf' : u.Fits hi) {body : Int → Prog α Unit} {g : Nat → Prog α Unit} {fuel : Nat}
    (hle : lo ≤ hi) (hfuel : hi < fuel) (hb : ∀ n : Nat, lo ≤ n → n < hi → body n = g n) :
    upTo t u fuel (lo : Int) hi body = forUp lo hi g := cForU_lt ht hu hf hf' hle hfuel hb

theorem upTo_eq0 {t u : IntTy} (ht : t.Std) (hu : u.Std) {hi : Nat} (hf : t.Fits hi)
    (hf' : u.Fits hi) {body : Int → Prog α Unit} {g : Nat → Prog α Unit} {fuel : Nat}
    (hfuel : hi < fuel) (hb : ∀ n : Nat, n < hi → body n = g n) :
    upTo t u fuel 0 hi body = forUp 0 hi g := cForU_lt0 ht hu hf hf' hfuel hb

theorem foldUpTo_eq {t u : IntTy} (ht : t.Std) (hu : u.Std) {lo hi : Nat} (hf : t.Fits hi)
    (hf' : u.Fits hi) {body : σ → Int → Prog α σ} {g : σ → Nat → Prog α σ} {fuel : Nat} {s : σ}
    (hle : lo ≤ hi) (hfuel : hi < fuel) (hb : ∀ s (n : Nat), lo ≤ n → n < hi → body s n = g s n) :
    foldUpTo t u fuel (lo : Int) hi s body = foldEach (List.range' lo (hi - lo)) s g := by
  unfold foldUpTo
  rw [cFor_up ht hf (fun n hn => lt_fits ht hu (hf.le hn) hf') fuel lo s hle (by omega)]
  refine foldEach_body_congr (fun n hn s => ?_) s
  rw [List.mem_range'_1] at hn
  exact hb s n hn.1 (by omega)

theorem foldUpTo_eq0 {t u : IntTy} (ht : t.Std) (hu : u.Std) {hi : Nat} (hf : t.Fits hi)
    (hf' : u.Fits hi) {body : σ → Int → Prog α σ} {g : σ → Nat → Prog α σ} {fuel : Nat} {s : σ}
    (hfuel : hi < fuel) (hb : ∀ s (n : Nat), n < hi → body s n = g s n) :
    foldUpTo t u fuel 0 hi s body = foldEach (List.range' 0 hi) s g :=
  foldUpTo_eq (lo := 0) ht hu hf hf' (Nat.zero_le _) hfuel fun s n _ => hb s n

theorem bind_congr_prog {β γ : Type} {p p' : Prog α β} {f f' : β → Prog α γ} (h : p = p')
    (h' : ∀ b, f b = f' b) : (p >>= f) = (p' >>= f') := h ▸ bind_body_congr h'

theorem ite_congr_prog {β : Type} {c : Prop} [Decidable c] {p q p' q' : Prog α β}
    (h : c → p = p') (h' : ¬ c → q = q') : (if c then p else q) = (if c then p' else q') := by
  split
  · exact h ‹_›
  · exact h' ‹_›

theorem ite_iff_prog {β : Type} {c c' : Prop} [Decidable c] [Decidable c'] {p q p' q' : Prog α β}
    (hc : c ↔ c') (h : c' → p = p') (h' : ¬ c' → q = q') :
    (if c then p else q) = (if c' then p' else q') := by
  by_cases hh : c'
  · rw [if_pos hh, if_pos (hc.2 hh), h hh]
  · rw [if_neg hh, if_neg (fun a => hh (hc.1 a)), h' hh]

/-- The upper limit of the loops of rank updates. -/
theorem le_upTo {t : IntTy} (ht : t.Std) {j : Nat} (hf : t.Fits (j + 1))
    {body : Int → Prog α Unit} {g : Nat → Prog α Unit} {fuel : Nat}
    (hfuel : j + 1 < fuel) (hb : ∀ n : Nat, n < j + 1 → body n = g n) :
    cForU (fun i => le t t i j) (incr t) fuel 0 body = forUp 0 (j + 1) g := by
  have := cForU_up (lo := 0) (cond := fun i => le t t i (j : Int)) ht hf (fun n hn => ?_)
    (body := body) (Nat.zero_le _) hfuel
  · rw [show ((0 : Nat) : Int) = 0 from rfl] at this
    rw [this]
    exact forUp_body_congr fun n _ h => hb n h
  · rw [le_fits ht ht (hf.le hn) (hf.le (Nat.le_succ j)), decide_eq_decide]
    omega

theorem upTo_eq_cast {t u : IntTy} (ht : t.Std) (hu : u.Std) {lo hi : Nat} (hf : t.Fits hi)
    (hf' : u.Fits hi) {body : Int → Prog α Unit} {g : Nat → Prog α Unit} {fuel : Nat}
    (hle : lo ≤ hi) (hfuel : hi < fuel) (hb : ∀ n : Nat, lo ≤ n → n < hi → body n = g n) :
    upTo t u fuel (t.cast (lo : Int)) hi body = forUp lo hi g := by
  rw [cast_fits ht (hf.le hle)]
  exact upTo_eq ht hu hf hf' hle hfuel hb

theorem upTo_eq_cast_hi {t : IntTy} (ht : t.Std) {hi : Nat} (hf : t.Fits hi)
    {body : Int → Prog α Unit} {g : Nat → Prog α Unit} {fuel : Nat}
    (hfuel : hi < fuel) (hb : ∀ n : Nat, n < hi → body n = g n) :
    upTo t t fuel 0 (t.cast (hi : Int)) body = forUp 0 hi g := by
  rw [cast_fits ht hf]
  exact upTo_eq0 ht ht hf hf hfuel hb

theorem bind_add_one {β : Type} {t u : IntTy} (ht : t.Std) (hu : u.Std) {n : Nat}
    (h : t.Fits (n + 1)) {k : Int → Prog α β} {p : Prog α β} (hk : k ((n + 1 : Nat) : Int) = p) :
    (add t u (n : Int) 1 >>= k) = p := by
  rw [add_one_fits' ht hu h, pure_bind_prog, hk]

theorem bind_pure_left {β γ : Type} {b : β} {k : β → Prog α γ} {p : Prog α γ} (hk : k b = p) :
    ((pure b : Prog α β) >>= k) = p := hk

theorem makeDiagRealT_fits [ConjOps α] {A : Mat} {t : IntTy} (ht : t.Std) {j : Nat}
    (hj : t.Fits j) : (makeDiagRealT A t j : Prog α Unit) = makeDiagReal A j := by
  unfold makeDiagRealT makeDiagReal
  rw [Mat.at_fits ht hj hj]
  simp only [Mat.put_fits ht hj hj]

theorem triangleLoop1T_eq {fuel : Nat} {sz tA : IntTy} (hsz : sz.Std) (hA : tA.Std)
    {rows cols : Nat} (hsq : rows = cols) {t : Triangle} (fs : sz.Fits rows) (fA : tA.Fits rows)
    (hf : rows < fuel) {pre : Int → Prog α Unit} {pre' : Nat → Prog α Unit}
    {body : Int → Int → Prog α Unit} {body' : Nat → Nat → Prog α Unit}
    (hpre : ∀ j : Nat, j < cols → pre j = pre' j)
    (hb : ∀ i j : Nat, i < rows → j < cols → body i j = body' i j) :
    triangleLoop1T fuel sz tA rows cols t pre body = triangleLoop rows cols t pre' body' := by
  subst hsq
  cases t with
  | lower =>
    unfold triangleLoop1T triangleLoop
    refine upTo_eq0 hsz hA fs fA hf fun j hj => ?_
    rw [hpre j hj]
    refine bind_body_congr fun _ => ?_
    exact upTo_eq hsz hA fs fA hj.le hf fun i _ hi => hb i j hi hj
  | upper =>
    unfold triangleLoop1T triangleLoop
    refine upTo_eq0 hsz hA fs fA hf fun j hj => ?_
    rw [hpre j hj]
    refine bind_body_congr fun _ => ?_
    exact le_upTo hsz (fs.le hj) (by omega) fun i hi => hb i j (by omega) hj

theorem triangleLoop2T_eq {fuel : Nat} {sz tC : IntTy} (hsz : sz.Std) (hC : tC.Std)
    {rows cols : Nat} (hsq : rows = cols) {t : Triangle} (fs : sz.Fits rows) (fC : tC.Fits rows)
    (hf : rows < fuel) {pre : Int → Prog α Unit} {pre' : Nat → Prog α Unit}
    {body : Int → Int → Prog α Unit} {body' : Nat → Nat → Prog α Unit}
    (hpre : ∀ j : Nat, j < cols → pre j = pre' j)
    (hb : ∀ i j : Nat, i < rows → j < cols → body i j = body' i j) :
    triangleLoop2T fuel sz tC rows cols t pre body = triangleLoop rows cols t pre' body' := by
  subst hsq
  have hu := usual_std hsz int_std
  have hcs := common_std hC hu
  have fcs := (fs.usual_left hsz int_std).common_right hC hu
  cases t with
  | lower =>
    unfold triangleLoop2T triangleLoop
    refine upTo_eq0 hsz hC fs fC hf fun j hj => ?_
    simp only [if_true, pure_bind_prog]
    rw [hpre j hj, cast_fits hcs fcs, cast_fits hsz fs]
    refine bind_body_congr fun _ => ?_
    exact upTo_eq hsz hsz fs fs hj.le hf fun i _ hi => hb i j hi hj
  | upper =>
    unfold triangleLoop2T triangleLoop
    refine upTo_eq0 hsz hC fs fC hf fun j hj => ?_
    simp only [reduceCtorEq, if_false]
    refine bind_add_one hsz int_std (fs.le hj) ?_
    rw [hpre j hj, cast_fits hcs (fcs.le hj), cast_fits hsz (fs.le hj)]
    refine bind_body_congr fun _ => ?_
    exact upTo_eq0 hsz hsz (fs.le hj) (fs.le hj) (by omega) fun i hi => hb i j (by omega) hj

theorem fillZeroT_eq [Zero α] {fuel : Nat} {sz tA ty : IntTy} (hsz : sz.Std) (hA : tA.Std)
    (hy : ty.Std) {n : Nat} (fs : sz.Fits n) (fA : tA.Fits n) (fy : ty.Fits n) (hf : n < fuel)
    {y : Vec} : (fillZeroT fuel sz tA ty n y : Prog α Unit) = fillZero n y :=
  upTo_eq0 hsz hA fs fA hf fun _ hi => Vec.put_fits hy (fy.le hi.le) _

theorem fillFromT_eq {fuel : Nat} {sz tA ty tz : IntTy} (hsz : sz.Std) (hA : tA.Std)
    (hy : ty.Std) (hz : tz.Std) {n : Nat} (fs : sz.Fits n) (fA : tA.Fits n) (fy : ty.Fits n)
    (fz : tz.Fits n) (hf : n < fuel) {y : VecV α} {z : Vec} :
    fillFromT fuel sz tA ty tz n y z = fillFrom n y z :=
  upTo_eq0 hsz hA fs fA hf fun _ hi => bind_congr_prog (VecV.at_fits hy (fy.le hi.le)) fun _ =>
    Vec.put_fits hz (fz.le hi.le) _

set_option hygiene false in
/-- The number fits: by one of the facts about the index types. -/
macro "fits" : tactic => `(tactic| first
  | assumption
  | exact IntTy.Fits.le FS (by omega) | exact IntTy.Fits.le F1 (by omega)
  | exact IntTy.Fits.le F2 (by omega) | exact IntTy.Fits.le F3 (by omega)
  | exact IntTy.Fits.le F4 (by omega))

/-- Step through two programs of the same form, one with integer types. -/
macro "idx" : tactic => `(tactic| repeat' (first
  | with_reducible rfl
  | with_reducible refine upTo_eq0 (by assumption) (by assumption) (by fits) (by fits) (by omega) (fun _ _ => ?_)
  | with_reducible refine upTo_eq (by assumption) (by assumption) (by fits) (by fits) (by omega) (by omega)
                     (fun _ _ _ => ?_)
  | with_reducible refine upTo_eq_cast (by assumption) (by assumption) (by fits) (by fits) (by omega) (by omega)
                     (fun _ _ _ => ?_)
  | with_reducible refine upTo_eq_cast_hi (by assumption) (by fits) (by omega) (fun _ _ => ?_)
  | with_reducible refine triangleLoop1T_eq (by assumption) (by assumption) (by omega) (by fits) (by fits)
                     (by omega) (fun _ _ => ?_) (fun _ _ _ _ => ?_)
  | with_reducible refine triangleLoop2T_eq (by assumption) (by assumption) (by omega) (by fits) (by fits)
                     (by omega) (fun _ _ => ?_) (fun _ _ _ _ => ?_)
  | with_reducible exact makeDiagRealT_fits (by assumption) (by fits)
  | with_reducible refine foldUpTo_eq0 (by assumption) (by assumption) (by fits) (by fits) (by omega)
                     (fun _ _ _ => ?_)
  | with_reducible exact MatV.at_fits (by assumption) (by fits) (by fits)
  | with_reducible exact Mat.at_fits (by assumption) (by fits) (by fits)
  | with_reducible exact Mat.put_fits (by assumption) (by fits) (by fits) _
  | with_reducible exact Mat.addAt_fits (by assumption) (by fits) (by fits) _
  | with_reducible exact VecV.at_fits (by assumption) (by fits)
  | with_reducible exact Vec.at_fits (by assumption) (by fits)
  | with_reducible exact Vec.put_fits (by assumption) (by fits) _
  | with_reducible exact Vec.addAt_fits (by assumption) (by fits) _
  | with_reducible refine bind_add_one (by assumption) (by first | assumption | exact int_std)
                     (by fits) ?_
  | with_reducible refine bind_pure_left ?_
  | with_reducible refine fillZeroT_eq (by assumption) (by assumption) (by assumption) (by fits) (by fits)
                     (by fits) (by omega)
  | with_reducible refine fillFromT_eq (by assumption) (by assumption) (by assumption) (by assumption) (by fits)
                     (by fits) (by fits) (by fits) (by omega)
  | with_reducible refine bind_congr_prog ?_ (fun _ => ?_)
  | with_reducible refine ite_congr_prog (fun _ => ?_) (fun _ => ?_)))

theorem symvAccT_eq [Add α] [Mul α] {fuel : Nat} {sz tA tx tz : IntTy} {A : MatV α}
    {t : Triangle} {x : VecV α} {z : Vec} (hsz : sz.Std) (hA : tA.Std) (hx : tx.Std) (hz : tz.Std)
    (hsq : A.rows = A.cols) (FS : sz.Fits (Max.max A.rows A.cols))
    (F1 : tA.Fits (Max.max A.rows A.cols)) (F2 : tx.Fits A.rows) (F3 : tz.Fits A.rows)
    (hf : A.rows < fuel) :
    symvAccT fuel sz tA tx tz A t x z = symvAcc A t x z := by
  unfold symvAccT symvAcc
  cases t with
  | lower => idx
  | upper => idx

theorem hemvAccT_eq [Add α] [Mul α] [ConjOps α] {fuel : Nat} {sz tA tx tz : IntTy} {A : MatV α}
    {t : Triangle} {x : VecV α} {z : Vec} (hsz : sz.Std) (hA : tA.Std) (hx : tx.Std) (hz : tz.Std)
    (hsq : A.rows = A.cols) (FS : sz.Fits (Max.max A.rows A.cols))
    (F1 : tA.Fits (Max.max A.rows A.cols)) (F2 : tx.Fits A.rows) (F3 : tz.Fits A.rows)
    (hf : A.rows < fuel) :
    hemvAccT fuel sz tA tx tz A t x z = hemvAcc A t x z := by
  unfold hemvAccT hemvAcc
  cases t with
  | lower => idx
  | upper => idx

theorem trmvAccT_eq [Add α] [Mul α] {fuel : Nat} {sz tA tx tz : IntTy} {A : MatV α}
    {t : Triangle} {d : Diag} {x : VecV α} {z : Vec} (hsz : sz.Std) (hA : tA.Std) (hx : tx.Std) (hz : tz.Std)
    (hsq : A.rows = A.cols) (FS : sz.Fits (Max.max A.rows A.cols))
    (F1 : tA.Fits (Max.max A.rows A.cols)) (F2 : tx.Fits A.rows) (F3 : tz.Fits A.rows)
    (hf : A.rows < fuel) :
    trmvAccT fuel sz tA tx tz A t d x z = trmvAcc A t d x z := by
  unfold trmvAccT trmvAcc
  cases t with
  | lower =>
    cases d with
    | explicit => simp only [if_true]; idx
    | implicitUnit => simp only [reduceCtorEq, if_false]; idx
  | upper =>
    cases d with
    | explicit => simp only [if_true]; idx
    | implicitUnit => simp only [reduceCtorEq, if_false]; idx

theorem norm_empty {tA : IntTy} {A : MatV α} (h : tA.Std) (hr : tA.Fits A.rows)
    (hc : tA.Fits A.cols) : (IntTy.eq tA int A.rows 0 = true ∨ IntTy.eq tA int A.cols 0 = true) ↔
      (A.rows = 0 ∨ A.cols = 0) := by
  have h1 := eq_fits h int_std hr (n := 0) (by decide)
  have h2 := eq_fits h int_std hc (n := 0) (by decide)
  rw [show ((0 : Nat) : Int) = 0 from rfl] at h1 h2
  rw [h1, h2, decide_eq_true_eq, decide_eq_true_eq]

theorem norm_single {tA : IntTy} {A : MatV α} (h : tA.Std) (hr : tA.Fits A.rows)
    (hc : tA.Fits A.cols) : (IntTy.eq tA tA A.rows 1 = true ∧ IntTy.eq tA tA A.cols 1 = true) ↔
      (A.rows = 1 ∧ A.cols = 1) := by
  have h1 := eq_fits h h hr (n := 1) (one_le_max h)
  have h2 := eq_fits h h hc (n := 1) (one_le_max h)
  rw [show ((1 : Nat) : Int) = 1 from rfl] at h1 h2
  rw [h1, h2, decide_eq_true_eq, decide_eq_true_eq]

theorem bind_assoc_prog {β γ δ : Type} (p : Prog α β) (f : β → Prog α γ) (g : γ → Prog α δ) :
    ((p >>= f) >>= g) = (p >>= fun b => f b >>= g) := by
  funext h
  change Prog.seq (Prog.seq p f) g h = Prog.seq p (fun b => Prog.seq (f b) g) h
  unfold Prog.seq
  cases p h <;> rfl

theorem foldEach_map_idx {ι τ : Type} (m : σ → τ) {f : τ → ι → Prog α τ} {g : σ → ι → Prog α σ}
    {l : List ι} {s : σ} (h : ∀ s i, f (m s) i = (g s i >>= fun s' => pure (m s'))) :
    foldEach l (m s) f = (foldEach l s g >>= fun s' => pure (m s')) := by
  induction l generalizing s with
  | nil => rfl
  | cons i l ih =>
    change (f (m s) i >>= fun s' => foldEach l s' f) =
      ((g s i >>= fun s' => foldEach l s' g) >>= fun s' => pure (m s'))
    rw [h, bind_assoc_prog, bind_assoc_prog]
    refine bind_body_congr fun s' => ?_
    rw [pure_bind_prog]
    exact ih

end StdBLAS

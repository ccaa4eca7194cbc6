import Verif.Lemmas.IndexTypes

/-!
# The kernels with C++ integer types refine the kernels over natural numbers
-/

namespace StdBLAS
open IntTy
variable {α σ : Type}

theorem bind_body_congr {β γ : Type} {p : Prog α β} {f g : β → Prog α γ} (h : ∀ b, f b = g b) :
    (p >>= f) = (p >>= g) := congrArg (fun k => p >>= k) (funext h)

theorem common3_std {t u v : IntTy} (ht : t.Std) (hu : u.Std) (hv : v.Std) : (common3 t u v).Std :=
  common_std (common_std ht hu) hv

theorem IntTy.Fits.common3_1 {t u v : IntTy} {n : Nat} (hf : t.Fits n) (ht : t.Std) (hu : u.Std)
    (hv : v.Std) : (common3 t u v).Fits n := (hf.common_left ht hu).common_left (common_std ht hu) hv
theorem IntTy.Fits.common3_2 {t u v : IntTy} {n : Nat} (hf : u.Fits n) (ht : t.Std) (hu : u.Std)
    (hv : v.Std) : (common3 t u v).Fits n := (hf.common_right ht hu).common_left (common_std ht hu) hv
theorem IntTy.Fits.common3_3 {t u v : IntTy} {n : Nat} (hf : v.Fits n) (ht : t.Std) (hu : u.Std)
    (hv : v.Std) : (common3 t u v).Fits n := hf.common_right (common_std ht hu) hv

/-- Ascending loop with both operands of the comparison in range. -/
theorem cForU_lt {t u : IntTy} (ht : t.Std) (hu : u.Std) {lo hi : Nat} (hf : t.Fits hi)
    (hf' : u.Fits hi) {body : Int → Prog α Unit} {g : Nat → Prog α Unit} {fuel : Nat}
    (hle : lo ≤ hi) (hfuel : hi < fuel) (hb : ∀ n : Nat, lo ≤ n → n < hi → body n = g n) :
    cForU (fun i => lt t u i hi) (incr t) fuel (lo : Int) body = forUp lo hi g := by
  rw [cForU_up ht hf (fun n hn => lt_fits ht hu (hf.le hn) hf') hle hfuel]
  exact forUp_body_congr hb

theorem cForU_lt0 {t u : IntTy} (ht : t.Std) (hu : u.Std) {hi : Nat} (hf : t.Fits hi)
    (hf' : u.Fits hi) {body : Int → Prog α Unit} {g : Nat → Prog α Unit} {fuel : Nat}
    (hfuel : hi < fuel) (hb : ∀ n : Nat, n < hi → body n = g n) :
    cForU (fun i => lt t u i hi) (incr t) fuel 0 body = forUp 0 hi g :=
  cForU_lt (lo := 0) ht hu hf hf' (Nat.zero_le _) hfuel fun n _ => hb n

theorem cFor_lt {t : IntTy} (ht : t.Std) {lo hi : Nat} (hf : t.Fits hi)
    {body : σ → Int → Prog α σ} {g : σ → Nat → Prog α σ} {fuel : Nat} (s : σ)
    (hle : lo ≤ hi) (hfuel : hi < fuel) (hb : ∀ s (n : Nat), lo ≤ n → n < hi → body s n = g s n) :
    cFor (fun i => lt t t i hi) (incr t) fuel (lo : Int) s body =
      foldEach (List.range' lo (hi - lo)) s g := by
  rw [cFor_up ht hf (fun n hn => lt_fits ht ht (hf.le hn) hf) fuel lo s hle (by omega)]
  refine foldEach_body_congr (fun n hn s => ?_) s
  rw [List.mem_range'_1] at hn
  exact hb s n hn.1 (by omega)

theorem cFor_lt0 {t : IntTy} (ht : t.Std) {hi : Nat} (hf : t.Fits hi)
    {body : σ → Int → Prog α σ} {g : σ → Nat → Prog α σ} {fuel : Nat} (s : σ)
    (hfuel : hi < fuel) (hb : ∀ s (n : Nat), n < hi → body s n = g s n) :
    cFor (fun i => lt t t i hi) (incr t) fuel 0 s body =
      foldEach (List.range' 0 hi) s g :=
  cFor_lt (lo := 0) ht hf s (Nat.zero_le _) hfuel fun s n _ => hb s n

theorem cForU_ge {t : IntTy} (ht : t.Std) (hs : t.signed = true) {n : Nat} (hf : t.Fits n)
    {body : Int → Prog α Unit} {g : Nat → Prog α Unit} {fuel : Nat} (hfuel : n < fuel)
    (hb : ∀ m : Nat, m < n → body m = g m) :
    cForU (fun i => le int t 0 i) (decr t) fuel ((n : Int) - 1) body = forDown n g := by
  rw [cForU_down ht hs hf (fun m hm => ge_zero_cond ht (hf.le hm)) (ge_zero_neg ht hs) fuel hfuel]
  exact forDown_body_congr hb

theorem cForU_gt {t : IntTy} (ht : t.Std) {n : Nat} (hf : t.Fits n)
    {body : Int → Prog α Unit} {g : Nat → Prog α Unit} {fuel : Nat} (hfuel : n < fuel)
    (hb : ∀ m : Nat, m < n → body ((m + 1 : Nat) : Int) = g m) :
    cForU (fun i => lt int t 0 i) (decr t) fuel (n : Int) body = forDown n g := by
  rw [cForU_down_pos (cond := fun i => lt int t 0 i) ht hf
    (fun m hm => lt_fits int_std ht (m := 0) (by decide) (hf.le hm)) fuel hfuel]
  exact forDown_body_congr hb

/-- `for (ptrdiff_t k = 0; k <= hi - 1; ++k)` -/
theorem cForU_le {hi : Nat} (hf : ptrdiff.Fits hi) {body : Int → Prog α Unit}
    {g : Nat → Prog α Unit} {fuel : Nat} (hfuel : hi < fuel)
    (hb : ∀ n : Nat, n < hi → body n = g n) :
    cForU (fun k => le ptrdiff ptrdiff k ((hi : Int) - 1)) (incr ptrdiff) fuel 0 body =
      forUp 0 hi g := by
  have hcond : ∀ n : Nat, n ≤ hi → le ptrdiff ptrdiff n ((hi : Int) - 1) = decide (n < hi) := by
    intro n hn
    unfold IntTy.le
    have h1 : usual ptrdiff ptrdiff = ptrdiff := rfl
    rw [h1, cast_fits ptrdiff_std (hf.le hn), cast_of_range ptrdiff_std]
    · rw [decide_eq_decide]; omega
    · have : ptrdiff.min ≤ -1 := by decide
      omega
    · unfold IntTy.Fits at hf; omega
  have := cForU_up (lo := 0)
    (cond := fun k => le ptrdiff ptrdiff k ((hi : Int) - 1)) ptrdiff_std hf hcond (body := body) (Nat.zero_le _) hfuel
  rw [show ((0 : Nat) : Int) = 0 from rfl] at this
  rw [this]
  exact forUp_body_congr fun n _ h => hb n h

theorem kUpper_eq {sz : IntTy} (hsz : sz.Std) {n i : Nat} (hf : sz.Fits n) (hp : ptrdiff.Fits n)
    (hi : i < n) (d : Diag) :
    (kUpper sz d (i : Int) : Prog α Int) =
      pure (((if d = .explicit then i + 1 else i : Nat) : Int) - 1) := by
  cases d with
  | explicit =>
    unfold kUpper
    rw [if_pos rfl, if_pos rfl, pure_bind_prog,
      cast_fits (common_std hsz (usual_std hsz ptrdiff_std))
        ((hf.le hi.le).common_left hsz (usual_std hsz ptrdiff_std)),
      cast_fits ptrdiff_std (hp.le hi.le)]
    congr 1; push_cast; omega
  | implicitUnit =>
    cases i with
    | zero => exact kUpper_unit_zero hsz
    | succ i =>
      unfold kUpper
      rw [if_neg (by decide), if_neg (by decide), sub_one_fits hsz ptrdiff_std (hf.le hi.le),
        pure_bind_prog,
        cast_fits (common_std hsz (usual_std hsz ptrdiff_std))
          ((hf.le (by omega)).common_left hsz (usual_std hsz ptrdiff_std)),
        cast_fits ptrdiff_std (hp.le (by omega))]
      congr 1; push_cast; omega

theorem kLower_eq {sz : IntTy} (hsz : sz.Std) {n i : Nat} (hf : sz.Fits n) (hi : i < n) (d : Diag) :
    (kLower sz d (i : Int) : Prog α Int) =
      pure ((if d = .explicit then i else i + 1 : Nat) : Int) := by
  cases d with
  | explicit =>
    unfold kLower
    rw [if_pos rfl, if_pos rfl, pure_bind_prog, cast_fits hsz (hf.le hi.le)]
  | implicitUnit =>
    unfold kLower
    rw [if_neg (by decide), if_neg (by decide), add_one_fits hsz (hf.le hi), pure_bind_prog,
      cast_fits hsz (hf.le hi)]

/-! ## Solves -/

theorem trsvUpperT_eq [Sub α] [Mul α] {fuel : Nat} {tA tB tX : IntTy} {divide : α → α → α}
    {A : MatV α} {d : Diag} {B : VecV α} {X : Vec} (hA : tA.Std) (hB : tB.Std) (hX : tX.Std)
    (hsq : A.rows = A.cols) (hbe : B.ext = A.rows) (hxe : X.ext = A.rows)
    (fA : tA.Fits A.rows) (fB : tB.Fits B.ext) (fX : tX.Fits X.ext) (fp : ptrdiff.Fits A.rows)
    (h0 : A.rows = 0 → common3 tA tB tX ≠ uint32) (hfuel : A.rows < fuel) :
    trsvUpperT fuel tA tB tX divide A d B X = trsvUpper divide A d B X := by
  have hsz := common3_std hA hB hX
  have fs := fA.common3_1 hA hB hX
  rw [hbe] at fB
  rw [hxe] at fX
  unfold trsvUpperT trsvUpper
  simp only [← hsq, cast_fits hsz fs]
  obtain ⟨z, hz, hc⟩ := start_ptrdiff (α := α) hsz fs fp h0
  rw [hz, pure_bind_prog, hc]
  refine cForU_ge ptrdiff_std rfl fp hfuel fun i hi => ?_
  rw [VecV.at_fits hB (fB.le hi.le)]
  refine bind_body_congr fun b => ?_
  rw [add_one_fits ptrdiff_std (fp.le hi), pure_bind_prog, cast_fits hsz (fs.le hi),
    cFor_lt hsz fs b hi hfuel (g := fun s j => do
      let a ← A.get i j
      let xj ← X.get j
      pure (s - a * xj))]
  · refine bind_body_congr fun s => ?_
    simp only [MatV.at_fits hA (fA.le hi.le) (fA.le hi.le), Vec.put_fits hX (fX.le hi.le)]
  · intro s j _ hj
    simp only [MatV.at_fits hA (fA.le hi.le) (fA.le hj.le), Vec.at_fits hX (fX.le hj.le)]

theorem trsvLowerT_eq [Sub α] [Mul α] {fuel : Nat} {tA tB tX : IntTy} {divide : α → α → α}
    {A : MatV α} {d : Diag} {B : VecV α} {X : Vec} (hA : tA.Std) (hB : tB.Std) (hX : tX.Std)
    (hbe : B.ext = A.rows) (hxe : X.ext = A.rows)
    (fA : tA.Fits A.rows) (fB : tB.Fits B.ext) (fX : tX.Fits X.ext) (hfuel : A.rows < fuel) :
    trsvLowerT fuel tA tB tX divide A d B X = trsvLower divide A d B X := by
  have hsz := common3_std hA hB hX
  have fs := fA.common3_1 hA hB hX
  rw [hbe] at fB
  rw [hxe] at fX
  unfold trsvLowerT trsvLower
  simp only [cast_fits hsz fs]
  refine cForU_lt0 hsz hsz fs fs hfuel fun i hi => ?_
  rw [VecV.at_fits hB (fB.le hi.le)]
  refine bind_body_congr fun b => ?_
  rw [cFor_lt0 hsz (fs.le hi.le) b (by omega) (g := fun s j => do
      let a ← A.get i j
      let xj ← X.get j
      pure (s - a * xj))]
  · refine bind_body_congr fun s => ?_
    simp only [MatV.at_fits hA (fA.le hi.le) (fA.le hi.le), Vec.put_fits hX (fX.le hi.le)]
  · intro s j hj
    simp only [MatV.at_fits hA (fA.le hi.le) (fA.le (hj.le.trans hi.le)),
      Vec.at_fits hX (fX.le (hj.le.trans hi.le))]

theorem trsmUpperLeftT_eq [Sub α] [Mul α] [Div α] {fuel : Nat} {tA tB tX : IntTy}
    {A : MatV α} {d : Diag} {B : MatV α} {X : Mat} (hA : tA.Std) (hB : tB.Std) (hX : tX.Std)
    (hbr : B.rows = A.rows) (hxr : X.rows = A.rows) (hxc : X.cols = B.cols)
    (fA : tA.Fits A.rows) (fBr : tB.Fits B.rows) (fBc : tB.Fits B.cols)
    (fXr : tX.Fits X.rows) (fXc : tX.Fits X.cols) (fp : ptrdiff.Fits A.rows)
    (h0 : A.rows = 0 → common3 tA tB tX ≠ uint32) (hfuel : A.rows < fuel) (hfuel' : B.cols < fuel) :
    trsmUpperLeftT fuel tA tB tX A d B X = trsmUpperLeft A d B X := by
  have hsz := common3_std hA hB hX
  have fs := fA.common3_1 hA hB hX
  have fsc := fBc.common3_2 hA hB hX
  rw [hbr] at fBr
  rw [hxr] at fXr
  rw [hxc] at fXc
  unfold trsmUpperLeftT trsmUpperLeft
  simp only [cast_fits hsz fs, cast_fits hsz fsc]
  obtain ⟨z, hz, hc⟩ := start_ptrdiff (α := α) hsz fs fp h0
  refine cForU_lt0 hsz hsz fsc fsc hfuel' fun k hk => ?_
  rw [hz, pure_bind_prog, hc]
  refine cForU_ge ptrdiff_std rfl fp hfuel fun i hi => ?_
  rw [MatV.at_fits hB (fBr.le hi.le) (fBc.le hk.le)]
  refine bind_body_congr fun b => ?_
  rw [add_one_fits ptrdiff_std (fp.le hi), pure_bind_prog, cast_fits hsz (fs.le hi),
    cFor_lt hsz fs b hi hfuel (g := fun s j => do
      let a ← A.get i j
      let xj ← X.get j k
      pure (s - a * xj))]
  · refine bind_body_congr fun s => ?_
    simp only [MatV.at_fits hA (fA.le hi.le) (fA.le hi.le),
      Mat.put_fits hX (fXr.le hi.le) (fXc.le hk.le)]
  · intro s j _ hj
    simp only [MatV.at_fits hA (fA.le hi.le) (fA.le hj.le),
      Mat.at_fits hX (fXr.le hj.le) (fXc.le hk.le)]

theorem trsmLowerLeftT_eq [Sub α] [Mul α] [Div α] {fuel : Nat} {tA tB tX : IntTy}
    {A : MatV α} {d : Diag} {B : MatV α} {X : Mat} (hA : tA.Std) (hB : tB.Std) (hX : tX.Std)
    (hbr : B.rows = A.rows) (hxr : X.rows = A.rows) (hxc : X.cols = B.cols)
    (fA : tA.Fits A.rows) (fBr : tB.Fits B.rows) (fBc : tB.Fits B.cols)
    (fXr : tX.Fits X.rows) (fXc : tX.Fits X.cols)
    (hfuel : A.rows < fuel) (hfuel' : B.cols < fuel) :
    trsmLowerLeftT fuel tA tB tX A d B X = trsmLowerLeft A d B X := by
  have hsz := common3_std hA hB hX
  have fs := fA.common3_1 hA hB hX
  have fsc := fBc.common3_2 hA hB hX
  rw [hbr] at fBr
  rw [hxr] at fXr
  rw [hxc] at fXc
  unfold trsmLowerLeftT trsmLowerLeft
  simp only [cast_fits hsz fs, cast_fits hsz fsc]
  refine cForU_lt0 hsz hsz fsc fsc hfuel' fun k hk => ?_
  refine cForU_lt0 hsz hsz fs fs hfuel fun i hi => ?_
  rw [MatV.at_fits hB (fBr.le hi.le) (fBc.le hk.le)]
  refine bind_body_congr fun b => ?_
  rw [cFor_lt0 hsz (fs.le hi.le) b (by omega) (g := fun s j => do
      let a ← A.get i j
      let xj ← X.get j k
      pure (s - a * xj))]
  · refine bind_body_congr fun s => ?_
    simp only [MatV.at_fits hA (fA.le hi.le) (fA.le hi.le),
      Mat.put_fits hX (fXr.le hi.le) (fXc.le hk.le)]
  · intro s j hj
    simp only [MatV.at_fits hA (fA.le hi.le) (fA.le (hj.le.trans hi.le)),
      Mat.at_fits hX (fXr.le (hj.le.trans hi.le)) (fXc.le hk.le)]

theorem trsmUpperRightT_eq [Sub α] [Mul α] [Div α] {fuel : Nat} {tA tB tX : IntTy}
    {A : MatV α} {d : Diag} {B : MatV α} {X : Mat} (hA : tA.Std) (hB : tB.Std) (hX : tX.Std)
    (hbc : B.cols = A.cols) (hxc : X.cols = A.cols) (hxr : X.rows = B.rows)
    (fA : tA.Fits A.cols) (fBr : tB.Fits B.rows) (fBc : tB.Fits B.cols)
    (fXr : tX.Fits X.rows) (fXc : tX.Fits X.cols)
    (hfuel : A.cols < fuel) (hfuel' : B.rows < fuel) :
    trsmUpperRightT fuel tA tB tX A d B X = trsmUpperRight A d B X := by
  have hsz := common3_std hA hB hX
  have fs := fA.common3_1 hA hB hX
  have fsr := fBr.common3_2 hA hB hX
  rw [hbc] at fBc
  rw [hxr] at fXr
  rw [hxc] at fXc
  unfold trsmUpperRightT trsmUpperRight
  simp only [cast_fits hsz fs, cast_fits hsz fsr]
  refine cForU_lt0 hsz hsz fsr fsr hfuel' fun i hi => ?_
  refine cForU_lt0 hsz hsz fs fs hfuel fun j hj => ?_
  rw [MatV.at_fits hB (fBr.le hi.le) (fBc.le hj.le)]
  refine bind_body_congr fun b => ?_
  rw [cFor_lt0 hsz (fs.le hj.le) b (by omega) (g := fun s k => do
      let a ← A.get k j
      let xk ← X.get i k
      pure (s - xk * a))]
  · refine bind_body_congr fun s => ?_
    simp only [MatV.at_fits hA (fA.le hj.le) (fA.le hj.le),
      Mat.put_fits hX (fXr.le hi.le) (fXc.le hj.le)]
  · intro s k hk
    simp only [MatV.at_fits hA (fA.le (hk.le.trans hj.le)) (fA.le hj.le),
      Mat.at_fits hX (fXr.le hi.le) (fXc.le (hk.le.trans hj.le))]

theorem makeSigned_std {t : IntTy} (ht : t.Std) : t.makeSigned.Std := ht

theorem IntTy.Fits.of_makeSigned {t : IntTy} (ht : t.Std) {n : Nat} (h : t.makeSigned.Fits n) :
    t.Fits n := by
  refine le_trans h ?_
  obtain ⟨s, b, rfl, hb⟩ := ht.cases
  rcases hb with rfl | rfl | rfl | rfl <;> cases s <;> decide

theorem trsmLowerRightT_eq [Sub α] [Mul α] [Div α] {fuel : Nat} {tA tB tX : IntTy}
    {A : MatV α} {d : Diag} {B : MatV α} {X : Mat} (hA : tA.Std) (hB : tB.Std) (hX : tX.Std)
    (hsq : A.rows = A.cols) (hbc : B.cols = A.cols) (hxc : X.cols = A.cols) (hxr : X.rows = B.rows)
    (fA : tA.Fits A.cols) (fBr : tB.Fits B.rows) (fBc : tB.Fits B.cols)
    (fXr : tX.Fits X.rows) (fXc : tX.Fits X.cols)
    (fsg : (common3 tA tB tX).makeSigned.Fits A.cols)
    (hfuel : A.cols < fuel) (hfuel' : B.rows < fuel) :
    trsmLowerRightT fuel tA tB tX A d B X = trsmLowerRight A d B X := by
  have hsz := common3_std hA hB hX
  have hsg := makeSigned_std hsz
  have fs := fA.common3_1 hA hB hX
  have fsr := fBr.common3_2 hA hB hX
  rw [hbc] at fBc
  rw [hxr] at fXr
  rw [hxc] at fXc
  unfold trsmLowerRightT trsmLowerRight
  simp only [hsq, cast_fits hsz fs, cast_fits hsz fsr, cast_fits hsg fsg]
  obtain ⟨z, hz, hc⟩ := start_signed (α := α) hsg rfl fsg
  refine cForU_lt0 hsz hsz fsr fsr hfuel' fun i hi => ?_
  rw [hz, pure_bind_prog, hc]
  refine cForU_ge hsg rfl fsg hfuel fun j hj => ?_
  rw [MatV.at_fits hB (fBr.le hi.le) (fBc.le hj.le)]
  refine bind_body_congr fun b => ?_
  rw [add_one_fits hsg (fsg.le hj), pure_bind_prog, cast_fits hsz (fs.le hj),
    cFor_lt hsz fs b hj hfuel (g := fun s k => do
      let a ← A.get k j
      let xk ← X.get i k
      pure (s - xk * a))]
  · refine bind_body_congr fun s => ?_
    simp only [MatV.at_fits hA (fA.le hj.le) (fA.le hj.le),
      Mat.put_fits hX (fXr.le hi.le) (fXc.le hj.le)]
  · intro s k _ hk
    simp only [MatV.at_fits hA (fA.le hk.le) (fA.le hj.le),
      Mat.at_fits hX (fXr.le hi.le) (fXc.le hk.le)]

/-! ## Products -/

theorem trmmLeftT_eq [Add α] [Mul α] [Zero α] {fuel : Nat} {tA tB tC : IntTy} {A : MatV α}
    {t : Triangle} {d : Diag} {B : MatV α} {C : Mat} (hA : tA.Std) (hB : tB.Std) (hC : tC.Std)
    (har : A.rows = C.rows) (hbr : B.rows = C.rows) (hbc : B.cols = C.cols)
    (fA : tA.Fits A.rows) (fBr : tB.Fits B.rows) (fBc : tB.Fits B.cols)
    (fCr : tC.Fits C.rows) (fCc : tC.Fits C.cols) (fp : ptrdiff.Fits C.rows)
    (hfuel : C.rows < fuel) (hfuel' : C.cols < fuel) :
    trmmLeftT fuel tA tB tC A t d B C = trmmLeft A t d B C := by
  have hsz := common3_std hA hB hC
  have fsr := fCr.common3_3 hA hB hC
  have fsc := fCc.common3_3 hA hB hC
  rw [har] at fA
  rw [hbr] at fBr
  rw [hbc] at fBc
  cases t with
  | lower =>
    unfold trmmLeftT trmmLeft
    refine cForU_lt0 hsz hC fsc fCc hfuel' fun j hj => ?_
    refine cForU_lt0 hsz hC fsr fCr hfuel fun i hi => ?_
    rw [Mat.put_fits hC (fCr.le hi.le) (fCc.le hj.le)]
    refine bind_body_congr fun _ => ?_
    rw [kUpper_eq hsz fsr fp hi, pure_bind_prog]
    have hup : (if d = .explicit then i + 1 else i) ≤ C.rows := by split <;> omega
    have hk : ∀ k, k < (if d = .explicit then i + 1 else i) → k ≤ C.rows := by omega
    rw [cForU_le (fp.le hup) (by omega) (g := fun k => do
        let a ← A.get i k
        let b ← B.get k j
        C.addTo i j (a * b))]
    · refine bind_body_congr fun _ => ?_
      simp only [MatV.at_fits hB (fBr.le hi.le) (fBc.le hj.le),
        Mat.addAt_fits hC (fCr.le hi.le) (fCc.le hj.le)]
    · intro k hk'
      simp only [MatV.at_fits hA (fA.le hi.le) (fA.le (hk k hk')),
        MatV.at_fits hB (fBr.le (hk k hk')) (fBc.le hj.le),
        Mat.addAt_fits hC (fCr.le hi.le) (fCc.le hj.le)]
  | upper =>
    unfold trmmLeftT trmmLeft
    refine cForU_lt0 hsz hC fsc fCc hfuel' fun j hj => ?_
    refine cForU_lt0 hsz hC fsr fCr hfuel fun i hi => ?_
    rw [Mat.put_fits hC (fCr.le hi.le) (fCc.le hj.le)]
    refine bind_body_congr fun _ => ?_
    rw [kLower_eq hsz fsr hi, pure_bind_prog]
    rw [cForU_lt hsz hC fsr fCr (by split <;> omega) hfuel (g := fun k => do
        let a ← A.get i k
        let b ← B.get k j
        C.addTo i j (a * b))]
    · refine bind_body_congr fun _ => ?_
      simp only [MatV.at_fits hB (fBr.le hi.le) (fBc.le hj.le),
        Mat.addAt_fits hC (fCr.le hi.le) (fCc.le hj.le)]
    · intro k _ hk'
      simp only [MatV.at_fits hA (fA.le hi.le) (fA.le hk'.le),
        MatV.at_fits hB (fBr.le hk'.le) (fBc.le hj.le),
        Mat.addAt_fits hC (fCr.le hi.le) (fCc.le hj.le)]

theorem trmmRightT_eq [Add α] [Mul α] [Zero α] {fuel : Nat} {tA tB tC : IntTy} {A : MatV α}
    {t : Triangle} {d : Diag} {B : MatV α} {C : Mat} (hA : tA.Std) (hB : tB.Std) (hC : tC.Std)
    (hac : A.cols = C.cols) (hbr : B.rows = C.rows) (hbc : B.cols = C.cols)
    (fA : tA.Fits A.cols) (fBr : tB.Fits B.rows) (fBc : tB.Fits B.cols)
    (fCr : tC.Fits C.rows) (fCc : tC.Fits C.cols) (fp : ptrdiff.Fits C.cols)
    (hfuel : C.rows < fuel) (hfuel' : C.cols < fuel) :
    trmmRightT fuel tA tB tC B A t d C = trmmRight B A t d C := by
  have hsz := common3_std hA hB hC
  have fsr := fCr.common3_3 hA hB hC
  have fsc := fCc.common3_3 hA hB hC
  rw [hac] at fA
  rw [hbr] at fBr
  rw [hbc] at fBc
  cases t with
  | lower =>
    unfold trmmRightT trmmRight
    refine cForU_lt0 hsz hC fsc fCc hfuel' fun j hj => ?_
    rw [kLower_eq hsz fsc hj, pure_bind_prog]
    refine cForU_lt0 hsz hC fsr fCr hfuel fun i hi => ?_
    rw [Mat.put_fits hC (fCr.le hi.le) (fCc.le hj.le)]
    refine bind_body_congr fun _ => ?_
    rw [cForU_lt hsz hC fsc fCc (by split <;> omega) hfuel' (g := fun k => do
        let b ← B.get i k
        let a ← A.get k j
        C.addTo i j (b * a))]
    · refine bind_body_congr fun _ => ?_
      simp only [MatV.at_fits hB (fBr.le hi.le) (fBc.le hj.le),
        Mat.addAt_fits hC (fCr.le hi.le) (fCc.le hj.le)]
    · intro k _ hk'
      simp only [MatV.at_fits hA (fA.le hk'.le) (fA.le hj.le),
        MatV.at_fits hB (fBr.le hi.le) (fBc.le hk'.le),
        Mat.addAt_fits hC (fCr.le hi.le) (fCc.le hj.le)]
  | upper =>
    unfold trmmRightT trmmRight
    refine cForU_lt0 hsz hC fsc fCc hfuel' fun j hj => ?_
    rw [kUpper_eq hsz fsc fp hj, pure_bind_prog]
    refine cForU_lt0 hsz hC fsr fCr hfuel fun i hi => ?_
    rw [Mat.put_fits hC (fCr.le hi.le) (fCc.le hj.le)]
    refine bind_body_congr fun _ => ?_
    have hup : (if d = .explicit then j + 1 else j) ≤ C.cols := by split <;> omega
    have hk : ∀ k, k < (if d = .explicit then j + 1 else j) → k ≤ C.cols := by omega
    rw [cForU_le (fp.le hup) (by omega) (g := fun k => do
        let b ← B.get i k
        let a ← A.get k j
        C.addTo i j (b * a))]
    · refine bind_body_congr fun _ => ?_
      simp only [MatV.at_fits hB (fBr.le hi.le) (fBc.le hj.le),
        Mat.addAt_fits hC (fCr.le hi.le) (fCc.le hj.le)]
    · intro k hk'
      simp only [MatV.at_fits hA (fA.le (hk k hk')) (fA.le hj.le),
        MatV.at_fits hB (fBr.le hi.le) (fBc.le (hk k hk')),
        Mat.addAt_fits hC (fCr.le hi.le) (fCc.le hj.le)]

theorem trmmLeftInPlaceT_eq [Add α] [Mul α] {fuel : Nat} {tA tC : IntTy} {A : MatV α}
    {t : Triangle} {d : Diag} {C : Mat} (hA : tA.Std) (hC : tC.Std)
    (har : A.rows = C.rows) (fA : tA.Fits A.rows)
    (fCr : tC.Fits C.rows) (fCc : tC.Fits C.cols)
    (hfuel : C.rows < fuel) (hfuel' : C.cols < fuel) :
    trmmLeftInPlaceT fuel tA tC A t d C = trmmLeftInPlace A t d C := by
  have hsz := common_std hA hC
  have fsr := fCr.common_right hA hC
  have fsc := fCc.common_right hA hC
  rw [har] at fA
  cases t with
  | upper =>
    unfold trmmLeftInPlaceT trmmLeftInPlace
    refine cForU_lt0 hsz hC fsc fCc hfuel' fun j hj => ?_
    refine cForU_lt0 hsz hC fsr fCr hfuel fun k hk => ?_
    rw [cForU_lt0 hsz hsz (fsr.le hk.le) (fsr.le hk.le) (by omega) (g := fun i => do
        let a ← A.get i k
        let c ← C.get k j
        C.addTo i j (a * c))]
    · refine bind_body_congr fun _ => ?_
      simp only [MatV.at_fits hA (fA.le hk.le) (fA.le hk.le), Mat.at_fits hC (fCr.le hk.le) (fCc.le hj.le),
        Mat.put_fits hC (fCr.le hk.le) (fCc.le hj.le)]
    · intro i hi
      have hi' : i ≤ C.rows := by omega
      simp only [MatV.at_fits hA (fA.le hi') (fA.le hk.le), Mat.at_fits hC (fCr.le hk.le) (fCc.le hj.le),
        Mat.addAt_fits hC (fCr.le hi') (fCc.le hj.le)]
  | lower =>
    unfold trmmLeftInPlaceT trmmLeftInPlace
    simp only [cast_fits hsz fsr]
    refine cForU_lt0 hsz hC fsc fCc hfuel' fun j hj => ?_
    refine cForU_gt hsz fsr hfuel fun k hk => ?_
    rw [cForU_lt hsz hC fsr fCr hk hfuel (g := fun i => do
        let a ← A.get i k
        let c ← C.get k j
        C.addTo i j (a * c))]
    · refine bind_body_congr fun _ => ?_
      simp only [sub_one_fits hsz int_std (fsr.le hk), pure_bind_prog,
        MatV.at_fits hA (fA.le hk.le) (fA.le hk.le), Mat.at_fits hC (fCr.le hk.le) (fCc.le hj.le),
        Mat.put_fits hC (fCr.le hk.le) (fCc.le hj.le)]
    · intro i _ hi
      simp only [sub_one_fits hsz int_std (fsr.le hk), pure_bind_prog,
        MatV.at_fits hA (fA.le hi.le) (fA.le hk.le), Mat.at_fits hC (fCr.le hk.le) (fCc.le hj.le),
        Mat.addAt_fits hC (fCr.le hi.le) (fCc.le hj.le)]

theorem trmmRightInPlaceT_eq [Add α] [Mul α] {fuel : Nat} {tA tC : IntTy} {A : MatV α}
    {t : Triangle} {d : Diag} {C : Mat} (hA : tA.Std) (hC : tC.Std)
    (hac : A.cols = C.cols) (fA : tA.Fits A.cols)
    (fCr : tC.Fits C.rows) (fCc : tC.Fits C.cols)
    (hfuel : C.rows < fuel) (hfuel' : C.cols < fuel) :
    trmmRightInPlaceT fuel tA tC A t d C = trmmRightInPlace A t d C := by
  have hsz := common_std hA hC
  have fsr := fCr.common_right hA hC
  have fsc := fCc.common_right hA hC
  rw [hac] at fA
  have hdiag : ∀ j, j < C.cols →
      (if d = .explicit then
        cForU (fun i => lt (common tA tC) tC i C.rows) (incr (common tA tC)) fuel 0 (fun i => do
          let c ← C.at_ tC i j
          let a ← A.at_ tA j j
          C.put tC i j (c * a))
      else pure ()) = (if d = .explicit then
        forUp 0 C.rows (fun i => do
          let c ← C.get i j
          let a ← A.get j j
          C.set i j (c * a))
      else pure ()) := by
    intro j hj
    split
    · refine cForU_lt0 hsz hC fsr fCr hfuel fun i hi => ?_
      simp only [MatV.at_fits hA (fA.le hj.le) (fA.le hj.le), Mat.at_fits hC (fCr.le hi.le) (fCc.le hj.le),
        Mat.put_fits hC (fCr.le hi.le) (fCc.le hj.le)]
    · rfl
  have hrow : ∀ j k, j < C.cols → k < C.cols →
      cForU (fun i => lt (common tA tC) tC i C.rows) (incr (common tA tC)) fuel 0 (fun i => do
          let c ← C.at_ tC i k
          let a ← A.at_ tA k j
          C.addAt tC i j (c * a)) = forUp 0 C.rows (fun i => do
          let c ← C.get i k
          let a ← A.get k j
          C.addTo i j (c * a)) := by
    intro j k hj hk
    refine cForU_lt0 hsz hC fsr fCr hfuel fun i hi => ?_
    simp only [MatV.at_fits hA (fA.le hk.le) (fA.le hj.le), Mat.at_fits hC (fCr.le hi.le) (fCc.le hk.le),
        Mat.addAt_fits hC (fCr.le hi.le) (fCc.le hj.le)]
  cases t with
  | upper =>
    unfold trmmRightInPlaceT trmmRightInPlace
    simp only [cast_fits hsz fsc]
    refine cForU_gt hsz fsc hfuel' fun j hj => ?_
    rw [sub_one_fits hsz int_std (fsc.le hj), pure_bind_prog, hdiag j hj]
    refine bind_body_congr fun _ => ?_
    refine cForU_lt0 hsz (usual_std hsz int_std) (fsc.le hj.le)
      ((fsc.le hj.le).usual_left hsz int_std) (by omega) fun k hk => ?_
    exact hrow j k hj (by omega)
  | lower =>
    unfold trmmRightInPlaceT trmmRightInPlace
    refine cForU_lt0 hsz hC fsc fCc hfuel' fun j hj => ?_
    rw [hdiag j hj]
    refine bind_body_congr fun _ => ?_
    rw [add_one_fits hsz (fsc.le hj), pure_bind_prog, cast_fits hsz (fsc.le hj)]
    exact cForU_lt hsz hC fsc fCc hj hfuel' fun k _ hk => hrow j k hj hk

end StdBLAS

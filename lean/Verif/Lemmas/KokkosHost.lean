import Verif.Lemmas.Async

/-!
# The calls of the Kokkos backend as programs of the host
-/

namespace StdBLAS
variable {α : Type}
open Host

theorem Sched.bind_unit (p : Sched α Unit) : (p >>= fun _ => pure ()) = p := Sched.bind_pure' p

/-! ## The same work -/

theorem sync_launch_fenced (k : Sched α Unit) : (launch k >>= fun _ => fenced).sync = k := by
  rw [sync_bind, sync_launch]
  exact Sched.bind_unit k

theorem sync_hostEachMatrixElement (A : Mat) (action : Nat → Nat → Task α Unit) :
    (hostEachMatrixElement A action).sync = forEachMatrixElement A action := by
  unfold hostEachMatrixElement forEachMatrixElement
  split <;> exact sync_launch_fenced _

theorem sync_hostEachTriangleElement (A : Mat) (t : Triangle) (action : Nat → Nat → Task α Unit) :
    (hostEachTriangleElement A t action).sync = forEachTriangleElement A t action := by
  cases t <;> exact sync_launch_fenced _

theorem sync_hostCheckSquare (A : KMat) (x y : KVec) :
    (hostCheckSquare A x y : Host α Unit).sync = kkCheckSquare A x y := by
  simp only [hostCheckSquare, kkCheckSquare, sync_bind, sync_require]

theorem sync_hostCheckLeft (A B C : KMat) :
    (hostCheckLeft A B C : Host α Unit).sync = kkCheckLeft A B C := by
  simp only [hostCheckLeft, kkCheckLeft, sync_bind, sync_require]

theorem sync_hostCheckRight (A B C : KMat) :
    (hostCheckRight A B C : Host α Unit).sync = kkCheckRight A B C := by
  simp only [hostCheckRight, kkCheckRight, sync_bind, sync_require]

theorem sync_hostCheckE (E C : KMat) : (hostCheckE E C : Host α Unit).sync = kkCheckE E C := by
  simp only [hostCheckE, kkCheckE, sync_bind, sync_require]

theorem sync_hostCheckGemm (A B C : Mat) :
    (hostCheckGemm A B C : Host α Unit).sync = kkCheckGemm A B C := by
  simp only [hostCheckGemm, kkCheckGemm, sync_bind, sync_require]

theorem sync_hostProduct [Add α] (A C : KMat) (init : Nat → Nat → Task α α)
    (term : Nat → Nat → Nat → Task α α) :
    (hostProduct A C init term).sync = kkProduct A C init term :=
  sync_hostEachMatrixElement _ _

theorem sync_hostTrmmLeftViews [Add α] [Mul α] [Zero α] (t : Triangle) (d : Diag) (A B C : Mat) :
    (hostTrmmLeftViews t d A B C : Host α Unit).sync = kkTrmmLeftViews t d A B C := by
  simp only [hostTrmmLeftViews, kkTrmmLeftViews, sync_forEach, sync_launch]

theorem sync_hostTrmmRightViews [Add α] [Mul α] [Zero α] (t : Triangle) (d : Diag) (A B C : Mat) :
    (hostTrmmRightViews t d A B C : Host α Unit).sync = kkTrmmRightViews t d A B C := by
  simp only [hostTrmmRightViews, kkTrmmRightViews, sync_forEach, sync_launch]

theorem sync_hostFrobNorm [AbsOps α] (low : ℝ) (A : KMat) (init : ℝ) :
    (hostFrobNorm low A init : Host α ℝ).sync = kkFrobNorm low A init := by
  unfold hostFrobNorm kkFrobNorm
  split
  · rfl
  · split
    · simp only [sync_bind, sync_here, sync_pure]
    · simp only [sync_bind, sync_await, sync_pure]

theorem sync_hostInfNorm [AbsOps α] (low : ℝ) (A : KMat) (init : ℝ) :
    (hostInfNorm low A init : Host α ℝ).sync = kkInfNorm low A init := by
  unfold hostInfNorm kkInfNorm
  split
  · rfl
  · simp only [sync_bind, sync_await, sync_pure]

theorem sync_hostOneNorm [AbsOps α] (low : ℝ) (A : KMat) (init : ℝ) :
    (hostOneNorm low A init : Host α ℝ).sync = kkOneNorm low A init := by
  unfold hostOneNorm kkOneNorm
  split
  · rfl
  · simp only [sync_bind, sync_await, sync_pure]

/-! ## Loops with a fence are finished -/

theorem finishesAs_hostEachMatrixElement (A : Mat) (action : Nat → Nat → Task α Unit) :
    (hostEachMatrixElement A action).FinishesAs (forEachMatrixElement A action) := by
  unfold hostEachMatrixElement forEachMatrixElement
  split <;> exact finishesAs_launch_fenced _

theorem finishesAs_hostEachTriangleElement (A : Mat) (t : Triangle)
    (action : Nat → Nat → Task α Unit) :
    (hostEachTriangleElement A t action).FinishesAs (forEachTriangleElement A t action) := by
  cases t <;> exact finishesAs_launch_fenced _

theorem finishesAs_hostCheckSquare (A : KMat) (x y : KVec) :
    (hostCheckSquare A x y : Host α Unit).FinishesAs (kkCheckSquare A x y) :=
  (finishesAs_require _).bind fun _ => (finishesAs_require _).bind fun _ => finishesAs_require _

theorem finishesAs_hostCheckLeft (A B C : KMat) :
    (hostCheckLeft A B C : Host α Unit).FinishesAs (kkCheckLeft A B C) :=
  (finishesAs_require _).bind fun _ => (finishesAs_require _).bind fun _ =>
    (finishesAs_require _).bind fun _ => finishesAs_require _

theorem finishesAs_hostCheckRight (A B C : KMat) :
    (hostCheckRight A B C : Host α Unit).FinishesAs (kkCheckRight A B C) :=
  (finishesAs_require _).bind fun _ => (finishesAs_require _).bind fun _ =>
    (finishesAs_require _).bind fun _ => finishesAs_require _

theorem finishesAs_hostCheckE (E C : KMat) :
    (hostCheckE E C : Host α Unit).FinishesAs (kkCheckE E C) :=
  (finishesAs_require _).bind fun _ => finishesAs_require _

theorem finishesAs_hostCheckGemm (A B C : Mat) :
    (hostCheckGemm A B C : Host α Unit).FinishesAs (kkCheckGemm A B C) :=
  (finishesAs_require _).bind fun _ => (finishesAs_require _).bind fun _ => finishesAs_require _

theorem finishesAs_hostProduct [Add α] (A C : KMat) (init : Nat → Nat → Task α α)
    (term : Nat → Nat → Nat → Task α α) :
    (hostProduct A C init term).FinishesAs (kkProduct A C init term) :=
  finishesAs_hostEachMatrixElement _ _

/-! ## In order, exceptions first -/

/-- In order, and exceptions come first. -/
def Host.Tame (p : Host α Unit) : Prop := p.InOrder false ∧ p.ThrowsFirst

theorem tame_require (c : Prop) [Decidable c] {p : Host α Unit} (hp : p.Tame) :
    (Host.require c >>= fun _ => p).Tame := by
  refine ⟨?_, throwsFirst_require hp.2⟩
  unfold Host.require
  split
  · exact hp.1
  · trivial

theorem tame_launch (k : Sched α Unit) : (launch k).Tame := ⟨trivial, .inr trivial⟩

theorem tame_launch_fenced (k : Sched α Unit) : (launch k >>= fun _ => fenced).Tame :=
  ⟨trivial, .inr trivial⟩

theorem tame_await {γ : Type} (k : Sched α γ) {p : γ → Host α Unit}
    (hp : ∀ c, (p c).InOrder true ∧ (p c).NoThrow) : (await k >>= p).Tame :=
  ⟨fun c => (hp c).1, .inr fun c => (hp c).2⟩

theorem tame_hostEachMatrixElement (A : Mat) (action : Nat → Nat → Task α Unit) :
    (hostEachMatrixElement A action).Tame := by
  unfold hostEachMatrixElement
  split <;> exact tame_launch_fenced _

theorem tame_hostEachTriangleElement (A : Mat) (t : Triangle)
    (action : Nat → Nat → Task α Unit) : (hostEachTriangleElement A t action).Tame := by
  cases t <;> exact tame_launch_fenced _

theorem tame_forEach_launch {ι : Type} (l : List ι) (k : ι → Sched α Unit) :
    (Host.forEach l fun i => launch (k i)).Tame := by
  induction l with
  | nil => exact ⟨trivial, .inr trivial⟩
  | cons i l ih =>
    rcases ih with ⟨h1, h2 | h2⟩
    · refine ⟨h1, .inr ?_⟩
      cases l <;> cases h2
    · exact ⟨h1, .inr h2⟩

theorem tame_assoc' {β : Type} {p : Host α Unit} {q : Host α β} {g : β → Host α Unit}
    (h : (p >>= fun _ => q >>= g).Tame) : ((p >>= fun _ => q) >>= g).Tame := by
  rwa [Host.bind_assoc']

theorem tame_hostCheckSquare (A : KMat) (x y : KVec) {p : Host α Unit} (hp : p.Tame) :
    (hostCheckSquare A x y >>= fun _ => p).Tame := by
  unfold hostCheckSquare
  simp only [Host.bind_assoc']
  exact tame_require _ (tame_require _ (tame_require _ hp))

theorem tame_hostCheckLeft (A B C : KMat) {p : Host α Unit} (hp : p.Tame) :
    (hostCheckLeft A B C >>= fun _ => p).Tame := by
  unfold hostCheckLeft
  simp only [Host.bind_assoc']
  exact tame_require _ (tame_require _ (tame_require _ (tame_require _ hp)))

theorem tame_hostCheckRight (A B C : KMat) {p : Host α Unit} (hp : p.Tame) :
    (hostCheckRight A B C >>= fun _ => p).Tame := by
  unfold hostCheckRight
  simp only [Host.bind_assoc']
  exact tame_require _ (tame_require _ (tame_require _ (tame_require _ hp)))

theorem tame_hostCheckE (E C : KMat) {p : Host α Unit} (hp : p.Tame) :
    (hostCheckE E C >>= fun _ => p).Tame := by
  unfold hostCheckE
  simp only [Host.bind_assoc']
  exact tame_require _ (tame_require _ hp)

theorem tame_hostCheckGemm (A B C : Mat) {p : Host α Unit} (hp : p.Tame) :
    (hostCheckGemm A B C >>= fun _ => p).Tame := by
  unfold hostCheckGemm
  simp only [Host.bind_assoc']
  exact tame_require _ (tame_require _ (tame_require _ hp))

/-! ## Calls that return early -/

/-- The program can end at once, without doing anything. -/
def Host.ReturnsEarly (p : Host α Unit) : Prop :=
  ∃ q : Queue α, ∀ {γ : Type} (rest : Host α γ) (q₀ : Queue α) (h : Heap α)
    (r : Except Err (γ × Queue α × Heap α)),
    Runs rest (q₀ ++ q) h r → Runs (p >>= fun _ => rest) q₀ h r

theorem returnsEarly_launch (k : Sched α Unit) : (launch k).ReturnsEarly :=
  ⟨[k], fun _ _ _ _ hr => .submit hr⟩

theorem returnsEarly_forEach {ι : Type} (l : List ι) (k : ι → Sched α Unit) :
    (Host.forEach l fun i => launch (k i)).ReturnsEarly := by
  induction l with
  | nil => exact ⟨[], fun _ q₀ _ _ hr => by rwa [List.append_nil] at hr⟩
  | cons i l ih =>
    obtain ⟨q, hq⟩ := ih
    refine ⟨k i :: q, fun rest q₀ h r hr => ?_⟩
    rw [Host.forEach, Host.bind_assoc']
    refine .submit (hq rest _ h r ?_)
    rwa [List.append_assoc]

theorem returnsEarly_require {c : Prop} [Decidable c] {p : Host α Unit} (hc : c)
    (hp : p.ReturnsEarly) : (Host.require c >>= fun _ => p).ReturnsEarly := by
  unfold Host.require
  rw [if_pos hc]
  exact hp

end StdBLAS

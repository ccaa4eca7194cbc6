import Verif.Lemmas.KokkosHost
import Verif.Lemmas.KokkosLib
import Verif.Props.KokkosProducts
import Verif.Props.KokkosKernels

/-!
# C79: a call of the Kokkos backend is finished when it returns

`Core/Async.lean` says how the host and the execution space run side by side, `Spec/KokkosHost.lean` what
"finished" means.
-/

namespace StdBLAS
variable {α : Type}
open Host

/-! ## The same work -/

/-- Apart from where they wait, the calls with loops are the functions of `Model/Kokkos.lean`. -/
theorem C79_same_work [Add α] [Mul α] [Zero α] [ConjOps α] [AbsOps α] (c : KCall α) :
    c.host.sync = c.sched := by
  cases c
  case swap1 | swap2 | gemvUpdate =>
    simp only [KCall.host, KCall.sched, hostSwap1, hostSwap2, hostGemvUpdate, kkSwap1, kkSwap2,
      kkGemvUpdate, sync_bind, sync_require, sync_launch, sync_fenced, Sched.bind_unit]
  case copy2 => exact sync_launch_fenced _
  case symv | symvUpdate | hemv | hemvUpdate | trmv | trmvUpdate =>
    simp only [KCall.host, KCall.sched, hostSymv, hostSymvUpdate, hostHemv, hostHemvUpdate,
      hostTrmv, hostTrmvUpdate, kkSymv, kkSymvUpdate, kkHemv, kkHemvUpdate, kkTrmv, kkTrmvUpdate,
      sync_bind, sync_require, sync_launch, sync_fenced, Sched.bind_unit, sync_hostCheckSquare]
  case ger | gerc | syr | her | syr2 | her2 | syrk | herk | syr2k | her2k =>
    simp only [KCall.host, KCall.sched, hostGer, hostGerc, hostSyr, hostHer, hostSyr2, hostHer2,
      hostSyrk, hostHerk, hostSyr2k, hostHer2k, kkGer, kkGerc, kkSyr, kkHer, kkSyr2, kkHer2, kkSyrk,
      kkHerk, kkSyr2k, kkHer2k, sync_bind, sync_require, sync_hostEachMatrixElement,
      sync_hostEachTriangleElement]
  case symmLeft | symmLeftUpdate | symmRight | symmRightUpdate | hemmLeft | hemmLeftUpdate |
      hemmRight | hemmRightUpdate =>
    simp only [KCall.host, KCall.sched, hostSymmLeft, hostSymmLeftUpdate, hostSymmRight,
      hostSymmRightUpdate, hostHemmLeft, hostHemmLeftUpdate, hostHemmRight, hostHemmRightUpdate,
      kkSymmLeft, kkSymmLeftUpdate, kkSymmRight, kkSymmRightUpdate, kkHemmLeft, kkHemmLeftUpdate,
      kkHemmRight, kkHemmRightUpdate, sync_bind, sync_hostCheckLeft, sync_hostCheckRight,
      sync_hostCheckE, sync_hostProduct]
  case trmmLeft | trmmLeftInPlace | trmmRight | trmmRightInPlace =>
    simp only [KCall.host, KCall.sched, hostTrmmLeft, hostTrmmLeftInPlace, hostTrmmRight,
      hostTrmmRightInPlace, kkTrmmLeft, kkTrmmLeftInPlace, kkTrmmRight, kkTrmmRightInPlace,
      sync_bind, sync_hostCheckLeft, sync_hostCheckRight, sync_hostTrmmLeftViews,
      sync_hostTrmmRightViews]
  case dot | absSum | norm2 | sumOfSquares =>
    simp only [KCall.host, KCall.sched, hostDot, hostAbsSum, hostNorm2, hostSumOfSquares, kkDot,
      kkAbsSum, kkNorm2, kkSumOfSquares, sync_into, sync_bind, sync_require, sync_await, sync_here,
      sync_pure]
  case frobNorm | infNorm | oneNorm =>
    simp only [KCall.host, KCall.sched, sync_into, sync_hostFrobNorm, sync_hostInfNorm,
      sync_hostOneNorm]

/-- Apart from where they wait, the calls of the libraries are the functions of
`Model/KokkosKernels.lean`. -/
theorem C79_same_work_library [Add α] [Mul α] [Zero α] [One α] (K : KokkosLib α) (c : LCall α) :
    (c.host K).sync = c.sched K := by
  cases c <;>
    simp only [LCall.host, LCall.sched, hostAdd1, hostAdd2, hostScale1, hostScale2, hostDotc,
      hostIdxAbsMax, hostCopy1, hostCopySame2, hostGemv, hostGemm, hostGemmTransA, hostGemmTransB,
      hostGemmFallback, hostTrmmLeftExplicit, hostTrmmLeftInPlaceExplicit, hostTrmmRightExplicit,
      hostTrmmRightInPlaceExplicit, hostTrsv, hostTrsmLeft, hostTrsmRight, kkAdd1, kkAdd2, kkScale1,
      kkScale2, kkDotc, kkIdxAbsMax, kkCopy1, kkCopySame2, kkGemv, kkGemm, kkGemmTransA,
      kkGemmTransB, kkGemmFallback, kkTrmmLeftExplicit, kkTrmmLeftInPlaceExplicit,
      kkTrmmRightExplicit, kkTrmmRightInPlaceExplicit, kkTrsv, kkTrsmLeft, kkTrsmRight, sync_into,
      sync_bind, sync_require, sync_launch, sync_await, sync_here, sync_pure, sync_fenced,
      sync_hostCheckGemm, sync_hostCheckLeft, sync_hostCheckRight, Sched.bind_unit]

/-! ## Finished when they return -/

/-- All calls with loops, except the triangular products with an implicit unit diagonal, are finished when
they return: whatever the host does next, nothing is waiting and it finds the result. -/
theorem C79_finished_partial [Add α] [Mul α] [Zero α] [ConjOps α] [AbsOps α] (c : KCall α)
    (hc : ¬ c.IsTrmm) : c.host.FinishesAs c.sched := by
  cases c
  case copy2 => exact finishesAs_launch_fenced _
  case swap1 => exact (finishesAs_require _).bind fun _ => finishesAs_launch_fenced _
  case swap2 =>
    exact (finishesAs_require _).bind fun _ => (finishesAs_require _).bind fun _ =>
      finishesAs_launch_fenced _
  case gemvUpdate =>
    exact (finishesAs_require _).bind fun _ => (finishesAs_require _).bind fun _ =>
      (finishesAs_require _).bind fun _ => finishesAs_launch_fenced _
  case symv | hemv | trmv =>
    exact (finishesAs_hostCheckSquare _ _ _).bind fun _ => finishesAs_launch_fenced _
  case symvUpdate | hemvUpdate | trmvUpdate =>
    exact (finishesAs_hostCheckSquare _ _ _).bind fun _ => (finishesAs_require _).bind fun _ =>
      finishesAs_launch_fenced _
  case ger | gerc =>
    exact (finishesAs_require _).bind fun _ => (finishesAs_require _).bind fun _ =>
      finishesAs_hostEachMatrixElement _ _
  case syr | her | syrk | herk =>
    exact (finishesAs_require _).bind fun _ => (finishesAs_require _).bind fun _ =>
      finishesAs_hostEachTriangleElement _ _ _
  case syr2 | her2 =>
    exact (finishesAs_require _).bind fun _ => (finishesAs_require _).bind fun _ =>
      (finishesAs_require _).bind fun _ => finishesAs_hostEachTriangleElement _ _ _
  case syr2k | her2k =>
    exact (finishesAs_require _).bind fun _ => (finishesAs_require _).bind fun _ =>
      (finishesAs_require _).bind fun _ => (finishesAs_require _).bind fun _ =>
        finishesAs_hostEachTriangleElement _ _ _
  case symmLeft | hemmLeft =>
    exact (finishesAs_hostCheckLeft _ _ _).bind fun _ => finishesAs_hostProduct _ _ _ _
  case symmRight | hemmRight | hemmRightUpdate =>
    exact (finishesAs_hostCheckRight _ _ _).bind fun _ => finishesAs_hostProduct _ _ _ _
  case symmLeftUpdate | hemmLeftUpdate =>
    exact (finishesAs_hostCheckLeft _ _ _).bind fun _ => (finishesAs_hostCheckE _ _).bind fun _ =>
      finishesAs_hostProduct _ _ _ _
  case symmRightUpdate =>
    exact (finishesAs_hostCheckRight _ _ _).bind fun _ => (finishesAs_hostCheckE _ _).bind fun _ =>
      finishesAs_hostProduct _ _ _ _
  case trmmLeft | trmmLeftInPlace | trmmRight | trmmRightInPlace => exact (hc trivial).elim
  case dot =>
    exact finishesAs_into ((finishesAs_require _).bind fun _ => (finishesAs_await _).bind fun _ =>
      finishesAs_pure _) _ _
  case absSum | norm2 =>
    exact finishesAs_into ((finishesAs_await _).bind fun _ => finishesAs_pure _) _ _
  case frobNorm low A init f out =>
    refine finishesAs_into ?_ _ _
    unfold hostFrobNorm kkFrobNorm
    split
    · exact finishesAs_pure _
    · split
      · exact (finishesAs_here _).bind fun _ => finishesAs_pure _
      · exact (finishesAs_await _).bind fun _ => (finishesAs_await _).bind fun _ => finishesAs_pure _
  case infNorm low A init f out =>
    refine finishesAs_into ?_ _ _
    unfold hostInfNorm kkInfNorm
    split
    · exact finishesAs_pure _
    · exact (finishesAs_await _).bind fun _ => finishesAs_pure _
  case oneNorm low A init f out =>
    refine finishesAs_into ?_ _ _
    unfold hostOneNorm kkOneNorm
    split
    · exact finishesAs_pure _
    · exact (finishesAs_await _).bind fun _ => finishesAs_pure _
  case sumOfSquares =>
    exact finishesAs_into ((finishesAs_await _).bind fun _ => (finishesAs_await _).bind fun _ =>
      (finishesAs_here _).bind fun _ => finishesAs_pure _) _ _

/-- Of the calls of the libraries, the copies, the conjugated dot product, the index of the largest element
and the matrix product for other accessors are finished when they return. -/
theorem C79_finished_library_partial [Add α] [Mul α] [Zero α] [One α] (K : KokkosLib α)
    (c : LCall α) (hc : c.Waits) : (c.host K).FinishesAs (c.sched K) := by
  cases c
  case dotc =>
    exact finishesAs_into ((finishesAs_require _).bind fun _ => (finishesAs_await _).bind fun _ =>
      finishesAs_pure _) _ _
  case idxAbsMax => exact finishesAs_into ((finishesAs_await _).bind fun _ => finishesAs_pure _) _ _
  case copy1 | copySame2 => exact finishesAs_launch_fenced _
  case gemmFallback => exact (finishesAs_hostCheckGemm _ _ _).bind fun _ => finishesAs_here _
  all_goals exact hc.elim

theorem get_of_holds {x : Vec} {h : Heap α} {f : Nat → α} (hx : x.Holds h f) {i : Nat}
    (hi : i < x.ext) : x.get i h = .ok (f i, h) := by
  simp only [Vec.get, if_pos hi, Prog.load, hx i hi]

theorem mget_of_holds {C : Mat} {h : Heap α} {f : Nat → Nat → α} (hC : C.Holds h f) {i j : Nat}
    (hi : i < C.rows) (hj : j < C.cols) : C.get i j h = .ok (f i j, h) := by
  simp only [Mat.get, if_pos (And.intro hi hj), Prog.load, hC i j hi hj trivial]

theorem FinishesAs.here {p : Host α Unit} {s : Sched α Unit} (hp : p.FinishesAs s) {h : Heap α}
    {Q : Unit → Heap α → Prop} (hs : Surely s h Q) {γ : Type} (next : Prog α γ)
    (r : Except Err (γ × Queue α × Heap α)) (hr : Runs (p >>= fun _ => Host.here next) [] h r) :
    ∃ h', Q () h' ∧ r = (next h').map fun o => (o.1, [], o.2) := by
  rcases (hp _ _ _ _).1 hr with ⟨e, he, -⟩ | ⟨_, h', hb, hr⟩
  · obtain ⟨_, _, h1, -⟩ := hs.2 _ he
    cases h1
  · obtain ⟨_, _, h1, hq⟩ := hs.2 _ hb
    cases h1
    refine ⟨h', hq, ?_⟩
    cases hr with
    | «local» hk hn =>
      cases hn
      rw [hk]
      rfl
    | localError hk =>
      rw [hk]
      rfl

/-- What the code of the host finds after such a call: the memory that the call leaves, with
nothing waiting.  `Q` is what is known of that memory (`C48`, `C65`, `C67`). -/
theorem C79_result_visible_partial [Add α] [Mul α] [Zero α] [ConjOps α] [AbsOps α] (c : KCall α)
    (hc : ¬ c.IsTrmm) {h : Heap α} {Q : Unit → Heap α → Prop} (hs : Surely c.sched h Q) {γ : Type}
    (next : Prog α γ) (r : Except Err (γ × Queue α × Heap α))
    (hr : Runs (c.host >>= fun _ => Host.here next) [] h r) :
    ∃ h', Q () h' ∧ r = (next h').map fun o => (o.1, [], o.2) :=
  FinishesAs.here (C79_finished_partial c hc) hs next r hr

section
open Witness

/-- After `symmetric_matrix_vector_product` the host reads the product. -/
example (r : Except Err (ℝ × Queue ℝ × Heap ℝ))
    (hr : Runs ((KCall.symv kA .upper kx ky : KCall ℝ).host >>= fun _ =>
      Host.here (ky.mdspan.get 1)) [] (heap ℝ) r) :
    ∃ h', r = .ok (mulVec 3 (symOf .upper (mvals ℝ A)) (vals ℝ kx.mdspan) 1, [], h') := by
  obtain ⟨h', hq, rfl⟩ := C79_result_visible_partial (.symv kA .upper kx ky) not_false
    (C48_symv kA .upper kx ky (heap ℝ) _ _ (mholds bA) (holds bkx) (alloc bky) rfl rfl rfl rfl rfl
      rfl (by kview_facts) (by kview_facts)) _ r hr
  exact ⟨h', by rw [get_of_holds hq.1 (by decide)]; rfl⟩

end

example : (hostCopy1 (refLib Uplo.standard abs) Witness.kx Witness.ky).FinishesAs
    (kkCopy1 (refLib Uplo.standard abs) Witness.kx Witness.ky) :=
  C79_finished_library_partial (refLib Uplo.standard (abs : ℝ → ℝ)) (.copy1 Witness.kx Witness.ky)
    trivial

/-! ## Calls that return early -/

theorem require_of_no_exn {β : Type} {c : Prop} [Decidable c] {s : Sched α β} {h : Heap α}
    (hn : ¬ (require c >>= fun _ => s) h (.error .exn)) : c ∧ ¬ s h (.error .exn) := by
  by_cases hc : c
  · refine ⟨hc, fun hs => hn ?_⟩
    rw [require, if_pos hc]
    exact .inr ⟨(), h, rfl, hs⟩
  · refine (hn ?_).elim
    rw [require, if_neg hc]
    exact .inl ⟨.exn, rfl, rfl⟩

theorem returnsEarly_checkLeft {A B C : KMat} {p : Host α Unit} {s : Sched α Unit} {h : Heap α}
    (hn : ¬ (kkCheckLeft A B C >>= fun _ => s) h (.error .exn)) (hp : p.ReturnsEarly) :
    (hostCheckLeft A B C >>= fun _ => p).ReturnsEarly := by
  unfold kkCheckLeft at hn
  unfold hostCheckLeft
  simp only [Sched.bind_assoc'] at hn
  simp only [Host.bind_assoc']
  obtain ⟨h1, hn⟩ := require_of_no_exn hn
  obtain ⟨h2, hn⟩ := require_of_no_exn hn
  obtain ⟨h3, hn⟩ := require_of_no_exn hn
  obtain ⟨h4, hn⟩ := require_of_no_exn hn
  exact returnsEarly_require h1 (returnsEarly_require h2 (returnsEarly_require h3
    (returnsEarly_require h4 hp)))

theorem returnsEarly_checkRight {A B C : KMat} {p : Host α Unit} {s : Sched α Unit} {h : Heap α}
    (hn : ¬ (kkCheckRight A B C >>= fun _ => s) h (.error .exn)) (hp : p.ReturnsEarly) :
    (hostCheckRight A B C >>= fun _ => p).ReturnsEarly := by
  unfold kkCheckRight at hn
  unfold hostCheckRight
  simp only [Sched.bind_assoc'] at hn
  simp only [Host.bind_assoc']
  obtain ⟨h1, hn⟩ := require_of_no_exn hn
  obtain ⟨h2, hn⟩ := require_of_no_exn hn
  obtain ⟨h3, hn⟩ := require_of_no_exn hn
  obtain ⟨h4, hn⟩ := require_of_no_exn hn
  exact returnsEarly_require h1 (returnsEarly_require h2 (returnsEarly_require h3
    (returnsEarly_require h4 hp)))

theorem ReturnsEarly.here {p : Host α Unit} (hp : p.ReturnsEarly) {γ : Type} {next : Prog α γ}
    {h h' : Heap α} {v : γ} (hr : next h = .ok (v, h')) :
    ∃ q, Runs (p >>= fun _ => Host.here next) [] h (.ok (v, q, h')) := by
  obtain ⟨q, hq⟩ := hp
  exact ⟨_, hq _ _ _ _ (.local hr .ret)⟩

/-- The triangular products with an implicit unit diagonal return early: the code of the host after such a
call can find the memory as it was before. -/
theorem C79_trmm_returns_early [Add α] [Mul α] [Zero α] [ConjOps α] [AbsOps α] (c : KCall α)
    (hc : c.IsTrmm) {h : Heap α} (hn : ¬ c.sched h (.error .exn)) {γ : Type} {next : Prog α γ}
    {h' : Heap α} {v : γ} (hr : next h = .ok (v, h')) :
    ∃ q, Runs (c.host >>= fun _ => Host.here next) [] h (.ok (v, q, h')) := by
  cases c
  case trmmLeft | trmmLeftInPlace =>
    exact ReturnsEarly.here (returnsEarly_checkLeft hn (returnsEarly_forEach _ _)) hr
  case trmmRight | trmmRightInPlace =>
    exact ReturnsEarly.here (returnsEarly_checkRight hn (returnsEarly_forEach _ _)) hr
  all_goals exact hc.elim

/-- The program can end when only `s` has been done. -/
def Host.EarlyAfter (p : Host α Unit) (s : Sched α Unit) : Prop :=
  ∃ q : Queue α, ∀ {γ : Type} (rest : Host α γ) (h h₁ : Heap α)
    (r : Except Err (γ × Queue α × Heap α)),
    s h (.ok ((), h₁)) → Runs rest q h₁ r → Runs (p >>= fun _ => rest) [] h r

theorem earlyAfter_launch (k : Sched α Unit) : (launch k).EarlyAfter (pure ()) :=
  ⟨[k], fun _ _ _ _ hs hr => by cases hs; exact .submit hr⟩

theorem earlyAfter_await (k₁ k₂ : Sched α Unit) :
    (await k₁ >>= fun _ => launch k₂).EarlyAfter k₁ :=
  ⟨[k₂], fun _ _ _ _ hs hr => .wait hs (.submit hr)⟩

/-- If `s` does not throw, `p` can end when only `t` has been done. -/
def Host.EarlyIfFits (p : Host α Unit) (s t : Sched α Unit) : Prop :=
  ∀ h, ¬ s h (.error .exn) → p.EarlyAfter t

theorem earlyIfFits_require {c : Prop} [Decidable c] {p : Host α Unit} {s t : Sched α Unit}
    (hp : p.EarlyIfFits s t) :
    (Host.require c >>= fun _ => p).EarlyIfFits (require c >>= fun _ => s) t := by
  intro h hn
  obtain ⟨hc, hs⟩ := require_of_no_exn hn
  unfold Host.require
  rw [if_pos hc]
  exact hp h hs

theorem earlyIfFits_checkLeft {A B C : KMat} {p : Host α Unit} {s t : Sched α Unit}
    (hp : p.EarlyIfFits s t) :
    (hostCheckLeft A B C >>= fun _ => p).EarlyIfFits (kkCheckLeft A B C >>= fun _ => s) t := by
  unfold kkCheckLeft hostCheckLeft
  simp only [Sched.bind_assoc', Host.bind_assoc']
  exact earlyIfFits_require (earlyIfFits_require (earlyIfFits_require (earlyIfFits_require hp)))

theorem earlyIfFits_checkRight {A B C : KMat} {p : Host α Unit} {s t : Sched α Unit}
    (hp : p.EarlyIfFits s t) :
    (hostCheckRight A B C >>= fun _ => p).EarlyIfFits (kkCheckRight A B C >>= fun _ => s) t := by
  unfold kkCheckRight hostCheckRight
  simp only [Sched.bind_assoc', Host.bind_assoc']
  exact earlyIfFits_require (earlyIfFits_require (earlyIfFits_require (earlyIfFits_require hp)))

theorem earlyIfFits_checkGemm {A B C : Mat} {p : Host α Unit} {s t : Sched α Unit}
    (hp : p.EarlyIfFits s t) :
    (hostCheckGemm A B C >>= fun _ => p).EarlyIfFits (kkCheckGemm A B C >>= fun _ => s) t := by
  unfold kkCheckGemm hostCheckGemm
  simp only [Sched.bind_assoc', Host.bind_assoc']
  exact earlyIfFits_require (earlyIfFits_require (earlyIfFits_require hp))

theorem earlyIfFits_launch (k s : Sched α Unit) : (launch k).EarlyIfFits s (pure ()) :=
  fun _ _ => earlyAfter_launch k

theorem earlyIfFits_await (k₁ k₂ s : Sched α Unit) :
    (await k₁ >>= fun _ => launch k₂).EarlyIfFits s k₁ :=
  fun _ _ => earlyAfter_await k₁ k₂

/-- The calls that forward to KokkosBlas return early: the code of the host after such a call can find the
memory in which only the copy of the right-hand sides has been made, if there is one, and nothing else has
been done. -/
theorem C79_library_returns_early [Add α] [Mul α] [Zero α] [One α] (K : KokkosLib α) (c : LCall α)
    (hc : ¬ c.Waits) {h h₁ : Heap α} (hn : ¬ c.sched K h (.error .exn))
    (h1 : c.copied K h (.ok ((), h₁))) {γ : Type} {next : Prog α γ} {h' : Heap α} {v : γ}
    (hr : next h₁ = .ok (v, h')) :
    ∃ q, Runs (c.host K >>= fun _ => Host.here next) [] h (.ok (v, q, h')) := by
  suffices he : (c.host K).EarlyIfFits (c.sched K) (c.copied K) by
    obtain ⟨q, hq⟩ := he h hn
    exact ⟨_, hq _ _ _ _ h1 (.local hr .ret)⟩
  cases c
  case add1 | gemv => exact earlyIfFits_require (earlyIfFits_require (earlyIfFits_launch _ _))
  case add2 =>
    exact earlyIfFits_require (earlyIfFits_require (earlyIfFits_require (earlyIfFits_require
      (earlyIfFits_launch _ _))))
  case scale1 | scale2 => exact earlyIfFits_launch _ _
  case dotc | idxAbsMax | copy1 | copySame2 | gemmFallback => exact (hc trivial).elim
  case gemm | gemmTransA | gemmTransB => exact earlyIfFits_checkGemm (earlyIfFits_launch _ _)
  case trmmLeft => exact earlyIfFits_checkLeft (earlyIfFits_await _ _ _)
  case trmmLeftInPlace => exact earlyIfFits_checkLeft (earlyIfFits_launch _ _)
  case trmmRight => exact earlyIfFits_checkRight (earlyIfFits_await _ _ _)
  case trmmRightInPlace => exact earlyIfFits_checkRight (earlyIfFits_launch _ _)
  case trsv =>
    exact earlyIfFits_require (earlyIfFits_require (earlyIfFits_require (earlyIfFits_await _ _ _)))
  case trsmLeft | trsmRight =>
    exact earlyIfFits_require (earlyIfFits_require (earlyIfFits_require (earlyIfFits_require
      (earlyIfFits_await _ _ _))))

/-! ## Calls after calls -/

theorem KCall.tame [Add α] [Mul α] [Zero α] [ConjOps α] [AbsOps α] (c : KCall α)
    (hc : ¬ c.ReadsAtOnce) : c.host.Tame := by
  cases c
  case copy2 => exact tame_launch_fenced _
  case swap1 => exact tame_require _ (tame_launch_fenced _)
  case swap2 => exact tame_require _ (tame_require _ (tame_launch_fenced _))
  case gemvUpdate =>
    exact tame_require _ (tame_require _ (tame_require _ (tame_launch_fenced _)))
  case symv | hemv | trmv => exact tame_hostCheckSquare _ _ _ (tame_launch_fenced _)
  case symvUpdate | hemvUpdate | trmvUpdate =>
    exact tame_hostCheckSquare _ _ _ (tame_require _ (tame_launch_fenced _))
  case ger | gerc => exact tame_require _ (tame_require _ (tame_hostEachMatrixElement _ _))
  case syr | her | syrk | herk =>
    exact tame_require _ (tame_require _ (tame_hostEachTriangleElement _ _ _))
  case syr2 | her2 =>
    exact tame_require _ (tame_require _ (tame_require _ (tame_hostEachTriangleElement _ _ _)))
  case syr2k | her2k =>
    exact tame_require _ (tame_require _ (tame_require _ (tame_require _
      (tame_hostEachTriangleElement _ _ _))))
  case symmLeft | hemmLeft => exact tame_hostCheckLeft _ _ _ (tame_hostEachMatrixElement _ _)
  case symmRight | hemmRight | hemmRightUpdate =>
    exact tame_hostCheckRight _ _ _ (tame_hostEachMatrixElement _ _)
  case symmLeftUpdate | hemmLeftUpdate =>
    exact tame_hostCheckLeft _ _ _ (tame_hostCheckE _ _ (tame_hostEachMatrixElement _ _))
  case symmRightUpdate =>
    exact tame_hostCheckRight _ _ _ (tame_hostCheckE _ _ (tame_hostEachMatrixElement _ _))
  case trmmLeft | trmmLeftInPlace => exact tame_hostCheckLeft _ _ _ (tame_forEach_launch _ _)
  case trmmRight | trmmRightInPlace => exact tame_hostCheckRight _ _ _ (tame_forEach_launch _ _)
  case dot x y init f out =>
    exact tame_assoc' (tame_require _ (tame_await _ fun _ => ⟨⟨rfl, fun _ => trivial⟩,
      fun _ => trivial⟩))
  case absSum | norm2 => exact tame_await _ fun _ => ⟨⟨rfl, fun _ => trivial⟩, fun _ => trivial⟩
  case frobNorm low A init f out =>
    have h1 : ¬ (A.rows = 0 ∨ A.cols = 0) := fun h => hc (h.elim .inl fun h => .inr (.inl h))
    have h2 : ¬ (A.rows = 1 ∧ A.cols = 1) := fun h => hc (.inr (.inr h))
    simp only [KCall.host, hostFrobNorm, if_neg h1, if_neg h2, Host.into]
    exact tame_await _ fun _ => ⟨fun _ => ⟨rfl, fun _ => trivial⟩, fun _ _ => trivial⟩
  case infNorm low A init f out =>
    have h1 : ¬ (A.rows = 0 ∨ A.cols = 0) := hc
    simp only [KCall.host, hostInfNorm, if_neg h1, Host.into]
    exact tame_await _ fun _ => ⟨⟨rfl, fun _ => trivial⟩, fun _ => trivial⟩
  case oneNorm low A init f out =>
    have h1 : ¬ A.cols = 0 := hc
    simp only [KCall.host, hostOneNorm, if_neg h1, Host.into]
    exact tame_await _ fun _ => ⟨⟨rfl, fun _ => trivial⟩, fun _ => trivial⟩
  case sumOfSquares =>
    exact tame_await _ fun _ => ⟨fun _ => ⟨rfl, fun _ => ⟨rfl, fun _ => trivial⟩⟩,
      fun _ _ _ => trivial⟩

theorem LCall.tame [Add α] [Mul α] [Zero α] [One α] (K : KokkosLib α) (c : LCall α)
    (hc : ¬ c.ReadsAtOnce) : (c.host K).Tame := by
  cases c
  case add1 | gemv => exact tame_require _ (tame_require _ (tame_launch _))
  case add2 =>
    exact tame_require _ (tame_require _ (tame_require _ (tame_require _ (tame_launch _))))
  case scale1 | scale2 => exact tame_launch _
  case dotc =>
    exact tame_assoc' (tame_require _ (tame_await _ fun _ => ⟨⟨rfl, fun _ => trivial⟩,
      fun _ => trivial⟩))
  case idxAbsMax => exact tame_await _ fun _ => ⟨⟨rfl, fun _ => trivial⟩, fun _ => trivial⟩
  case copy1 | copySame2 => exact tame_launch_fenced _
  case gemmFallback => exact (hc trivial).elim
  case gemm | gemmTransA | gemmTransB => exact tame_hostCheckGemm _ _ _ (tame_launch _)
  case trmmLeft => exact tame_hostCheckLeft _ _ _ (tame_await _ fun _ => ⟨trivial, trivial⟩)
  case trmmLeftInPlace => exact tame_hostCheckLeft _ _ _ (tame_launch _)
  case trmmRight => exact tame_hostCheckRight _ _ _ (tame_await _ fun _ => ⟨trivial, trivial⟩)
  case trmmRightInPlace => exact tame_hostCheckRight _ _ _ (tame_launch _)
  case trsv =>
    exact tame_require _ (tame_require _ (tame_require _ (tame_await _ fun _ => ⟨trivial, trivial⟩)))
  case trsmLeft | trsmRight =>
    exact tame_require _ (tame_require _ (tame_require _ (tame_require _
      (tame_await _ fun _ => ⟨trivial, trivial⟩))))

theorem Host.Tame.noThrow {p : Host α Unit} (hp : p.Tame) {h : Heap α}
    (hn : ¬ p.sync h (.error .exn)) : p.NoThrow := by
  rcases hp.2 with rfl | h2
  · exact (hn rfl).elim
  · exact h2

theorem BackendCall.tame [Add α] [Mul α] [Zero α] [One α] [ConjOps α] [AbsOps α]
    (K : KokkosLib α) (c : BackendCall α) (hc : ¬ c.ReadsAtOnce) : (c.host K).Tame := by
  cases c with
  | loops c => exact c.tame hc
  | library c => exact c.tame K hc

/-- Apart from where they wait, the calls are those of `Model/Kokkos.lean` and
`Model/KokkosKernels.lean`. -/
theorem BackendCall.sync_host [Add α] [Mul α] [Zero α] [One α] [ConjOps α] [AbsOps α]
    (K : KokkosLib α) (c : BackendCall α) : (c.host K).sync = c.sched K := by
  cases c with
  | loops c => exact C79_same_work c
  | library c => exact C79_same_work_library K c

theorem forEach_tame [Add α] [Mul α] [Zero α] [One α] [ConjOps α] [AbsOps α]
    (K : KokkosLib α) (cs : List (BackendCall α)) (hc : ∀ c ∈ cs, ¬ c.ReadsAtOnce)
    (hn : ∀ c ∈ cs, ∃ h, ¬ c.sched K h (.error .exn)) :
    (Host.forEach cs fun c => c.host K).InOrder false ∧
      (Host.forEach cs fun c => c.host K).NoThrow := by
  induction cs with
  | nil => exact ⟨trivial, trivial⟩
  | cons c cs ih =>
    have ih := ih (fun c h => hc c (.tail _ h)) (fun c h => hn c (.tail _ h))
    have ht := c.tame K (hc c (.head _))
    obtain ⟨h, hn⟩ := hn c (.head _)
    rw [← c.sync_host K] at hn
    exact ⟨ht.1.bind fun _ => ih.1, (ht.noThrow hn).bind fun _ => ih.2⟩

theorem sync_calls [Add α] [Mul α] [Zero α] [One α] [ConjOps α] [AbsOps α]
    (K : KokkosLib α) (cs : List (BackendCall α)) :
    (Host.forEach cs fun c => c.host K).sync = Sched.forEach cs fun c => c.sched K := by
  simp only [sync_forEach, BackendCall.sync_host]

/-- Calls one after the other, whether they return early or not, followed by a fence, do what they do when
each is finished before the next begins.  (None of them throws, and none reads memory
on the host without waiting.) -/
theorem C79_calls_then_fence [Add α] [Mul α] [Zero α] [One α] [ConjOps α] [AbsOps α]
    (K : KokkosLib α) (cs : List (BackendCall α)) (hc : ∀ c ∈ cs, ¬ c.ReadsAtOnce)
    (hn : ∀ c ∈ cs, ∃ h, ¬ c.sched K h (.error .exn)) :
    ((Host.forEach cs fun c => c.host K) >>= fun _ => Host.fenced).FinishesAs
      (Sched.forEach cs fun c => c.sched K) := by
  have h := forEach_tame K cs hc hn
  rw [← sync_calls]
  exact finishesAs_fenced h.1 h.2

/-- After a program whose kernels may be waiting, `c` does `s` and then nothing is waiting. -/
def Host.Settles {β : Type} (c : Host α β) (s : Sched α β) : Prop :=
  ∀ p : Host α Unit, p.InOrder false → p.NoThrow →
    (p >>= fun _ => c).FinishesAs (p.sync >>= fun _ => s)

theorem settles_launch_fenced (k : Sched α Unit) : (launch k >>= fun _ => fenced).Settles k := by
  intro p h1 h2
  have := finishesAs_fenced (p := p >>= fun _ => launch k) (h1.bind fun _ => trivial)
    (h2.bind fun _ => trivial)
  rwa [Host.bind_assoc', sync_bind, sync_launch] at this

theorem settles_await {β γ : Type} (k : Sched α β) {f : β → Host α γ} {g : β → Sched α γ}
    (hf : ∀ b, (f b).FinishesAs (g b)) : (await k >>= f).Settles (k >>= g) := by
  intro p h1 h2
  have := (finishesAs_await_after h1 h2 k).bind hf
  rwa [Host.bind_assoc', Sched.bind_assoc'] at this

/-- `Settles`, for calls that do not throw. -/
def Host.SettlesIfFits {β : Type} (c : Host α β) (s : Sched α β) : Prop :=
  ∀ h, ¬ s h (.error .exn) → c.Settles s

theorem settles_require {β : Type} {c : Prop} [Decidable c] {p : Host α β} {s : Sched α β}
    (hp : p.SettlesIfFits s) :
    (Host.require c >>= fun _ => p).SettlesIfFits (require c >>= fun _ => s) := by
  intro h hn
  obtain ⟨hc, hs⟩ := require_of_no_exn hn
  rw [Host.require, require, if_pos hc, if_pos hc]
  rw [show ((pure () : Sched α Unit) >>= fun _ => s) = s from Sched.pure_bind' _ _]
  exact hp h hs

theorem settles_checkSquare {A : KMat} {x y : KVec} {p : Host α Unit} {s : Sched α Unit}
    (hp : p.SettlesIfFits s) :
    (hostCheckSquare A x y >>= fun _ => p).SettlesIfFits (kkCheckSquare A x y >>= fun _ => s) := by
  unfold kkCheckSquare hostCheckSquare
  simp only [Sched.bind_assoc', Host.bind_assoc']
  exact settles_require (settles_require (settles_require hp))

theorem settles_checkLeft {A B C : KMat} {p : Host α Unit} {s : Sched α Unit}
    (hp : p.SettlesIfFits s) :
    (hostCheckLeft A B C >>= fun _ => p).SettlesIfFits (kkCheckLeft A B C >>= fun _ => s) := by
  unfold kkCheckLeft hostCheckLeft
  simp only [Sched.bind_assoc', Host.bind_assoc']
  exact settles_require (settles_require (settles_require (settles_require hp)))

theorem settles_checkRight {A B C : KMat} {p : Host α Unit} {s : Sched α Unit}
    (hp : p.SettlesIfFits s) :
    (hostCheckRight A B C >>= fun _ => p).SettlesIfFits (kkCheckRight A B C >>= fun _ => s) := by
  unfold kkCheckRight hostCheckRight
  simp only [Sched.bind_assoc', Host.bind_assoc']
  exact settles_require (settles_require (settles_require (settles_require hp)))

theorem settles_checkE {E C : KMat} {p : Host α Unit} {s : Sched α Unit}
    (hp : p.SettlesIfFits s) :
    (hostCheckE E C >>= fun _ => p).SettlesIfFits (kkCheckE E C >>= fun _ => s) := by
  unfold kkCheckE hostCheckE
  simp only [Sched.bind_assoc', Host.bind_assoc']
  exact settles_require (settles_require hp)

theorem settles_kernel (k : Sched α Unit) : (launch k >>= fun _ => fenced).SettlesIfFits k :=
  fun _ _ => settles_launch_fenced k

theorem settles_matrix (A : Mat) (action : Nat → Nat → Task α Unit) :
    (hostEachMatrixElement A action).SettlesIfFits (forEachMatrixElement A action) := by
  unfold hostEachMatrixElement forEachMatrixElement
  split <;> exact settles_kernel _

theorem settles_triangle (A : Mat) (t : Triangle) (action : Nat → Nat → Task α Unit) :
    (hostEachTriangleElement A t action).SettlesIfFits (forEachTriangleElement A t action) := by
  cases t <;> exact settles_kernel _

theorem settles_number {β : Type} (k : Sched α β) {f : β → Host α Unit} {g : β → Sched α Unit}
    (hf : ∀ b, (f b).FinishesAs (g b)) : (await k >>= f).SettlesIfFits (k >>= g) :=
  fun _ _ => settles_await k hf

theorem settles_into_await {β γ : Type} (k : Sched α β) {p : β → Host α γ} {s : β → Sched α γ}
    (hp : ∀ b, (p b).FinishesAs (s b)) (f : γ → α) (out : Nat) :
    ((await k >>= p).into f out).SettlesIfFits ((k >>= s).into f out) := by
  unfold Host.into Sched.into
  rw [Host.bind_assoc', Sched.bind_assoc']
  exact settles_number k fun b => (hp b).bind fun _ => finishesAs_here _

theorem settles_into_require {γ : Type} {c : Prop} [Decidable c] {p : Host α γ} {s : Sched α γ}
    {f : γ → α} {out : Nat} (hp : (p.into f out).SettlesIfFits (s.into f out)) :
    ((Host.require c >>= fun _ => p).into f out).SettlesIfFits
      ((require c >>= fun _ => s).into f out) := by
  unfold Host.into Sched.into at *
  rw [Host.bind_assoc', Sched.bind_assoc']
  exact settles_require hp

theorem BackendCall.settles [Add α] [Mul α] [Zero α] [One α] [ConjOps α] [AbsOps α]
    (K : KokkosLib α) (c : BackendCall α) (hc : c.WaitsForAll) :
    (c.host K).SettlesIfFits (c.sched K) := by
  rcases c with c | c <;> cases c
  case loops.copy2 => exact settles_kernel _
  case loops.swap1 => exact settles_require (settles_kernel _)
  case loops.swap2 => exact settles_require (settles_require (settles_kernel _))
  case loops.gemvUpdate =>
    exact settles_require (settles_require (settles_require (settles_kernel _)))
  case loops.symv | loops.hemv | loops.trmv => exact settles_checkSquare (settles_kernel _)
  case loops.symvUpdate | loops.hemvUpdate | loops.trmvUpdate =>
    exact settles_checkSquare (settles_require (settles_kernel _))
  case loops.ger | loops.gerc => exact settles_require (settles_require (settles_matrix _ _))
  case loops.syr | loops.her | loops.syrk | loops.herk =>
    exact settles_require (settles_require (settles_triangle _ _ _))
  case loops.syr2 | loops.her2 =>
    exact settles_require (settles_require (settles_require (settles_triangle _ _ _)))
  case loops.syr2k | loops.her2k =>
    exact settles_require (settles_require (settles_require (settles_require
      (settles_triangle _ _ _))))
  case loops.symmLeft | loops.hemmLeft => exact settles_checkLeft (settles_matrix _ _)
  case loops.symmRight | loops.hemmRight | loops.hemmRightUpdate =>
    exact settles_checkRight (settles_matrix _ _)
  case loops.symmLeftUpdate | loops.hemmLeftUpdate =>
    exact settles_checkLeft (settles_checkE (settles_matrix _ _))
  case loops.symmRightUpdate => exact settles_checkRight (settles_checkE (settles_matrix _ _))
  case loops.trmmLeft | loops.trmmLeftInPlace | loops.trmmRight | loops.trmmRightInPlace =>
    exact (hc.1 trivial).elim
  case loops.dot =>
    exact settles_into_require (settles_into_await _ (fun _ => finishesAs_pure _) _ _)
  case loops.absSum | loops.norm2 => exact settles_into_await _ (fun _ => finishesAs_pure _) _ _
  case loops.frobNorm low A init f out =>
    have h1 : ¬ (A.rows = 0 ∨ A.cols = 0) := fun h => hc.2 (h.elim .inl fun h => .inr (.inl h))
    have h2 : ¬ (A.rows = 1 ∧ A.cols = 1) := fun h => hc.2 (.inr (.inr h))
    simp only [BackendCall.host, BackendCall.sched, KCall.host, KCall.sched, hostFrobNorm,
      kkFrobNorm, if_neg h1, if_neg h2]
    exact settles_into_await _ (fun _ => (finishesAs_await _).bind fun _ => finishesAs_pure _) _ _
  case loops.infNorm low A init f out =>
    have h1 : ¬ (A.rows = 0 ∨ A.cols = 0) := hc.2
    simp only [BackendCall.host, BackendCall.sched, KCall.host, KCall.sched, hostInfNorm,
      kkInfNorm, if_neg h1]
    exact settles_into_await _ (fun _ => finishesAs_pure _) _ _
  case loops.oneNorm low A init f out =>
    have h1 : ¬ A.cols = 0 := hc.2
    simp only [BackendCall.host, BackendCall.sched, KCall.host, KCall.sched, hostOneNorm,
      kkOneNorm, if_neg h1]
    exact settles_into_await _ (fun _ => finishesAs_pure _) _ _
  case loops.sumOfSquares =>
    exact settles_into_await _ (fun _ => (finishesAs_await _).bind fun _ =>
      (finishesAs_here _).bind fun _ => finishesAs_pure _) _ _
  case library.dotc =>
    exact settles_into_require (settles_into_await _ (fun _ => finishesAs_pure _) _ _)
  case library.idxAbsMax => exact settles_into_await _ (fun _ => finishesAs_pure _) _ _
  case library.copy1 | library.copySame2 => exact settles_kernel _
  case library.gemmFallback => exact (hc.2 trivial).elim
  all_goals exact hc.1.elim

/-- A call that waits sees the results of all earlier calls, whether these were finished when they returned
or not, and finishes them: a fence is not needed before it. -/
theorem C79_waiting_call_sees_all [Add α] [Mul α] [Zero α] [One α] [ConjOps α] [AbsOps α]
    (K : KokkosLib α) (cs : List (BackendCall α)) (hc : ∀ c ∈ cs, ¬ c.ReadsAtOnce)
    (hn : ∀ c ∈ cs, ∃ h, ¬ c.sched K h (.error .exn)) (c : BackendCall α) (hw : c.WaitsForAll)
    (hcn : ∃ h, ¬ c.sched K h (.error .exn)) :
    ((Host.forEach cs fun c => c.host K) >>= fun _ => c.host K).FinishesAs
      (Sched.forEach cs (fun c => c.sched K) >>= fun _ => c.sched K) := by
  have h := forEach_tame K cs hc hn
  obtain ⟨h0, hn0⟩ := hcn
  have := BackendCall.settles K c hw h0 hn0 _ h.1 h.2
  rwa [sync_calls] at this

/-! ## Witnesses -/

section
open Witness

theorem surely_then_get {s : Sched α Unit} {h : Heap α} {Q : Unit → Heap α → Prop}
    (hs : Surely s h Q) {γ : Type} {next : Sched α γ} {w : γ}
    (hw : ∀ h' v h'', Q () h' → next h' (.ok (v, h'')) → v = w) (v : γ) (h' : Heap α)
    (hr : (s >>= fun _ => next) h (.ok (v, h'))) : v = w := by
  rcases hr with ⟨_, _, h3⟩ | ⟨_, h1, hb, hr⟩
  · cases h3
  · obtain ⟨_, _, h2, hq⟩ := hs.2 _ hb
    cases h2
    exact hw _ _ _ hq hr

/-- `triangular_matrix_left_product(exec, A, upper, implicit_unit_diagonal, C); C(0,0)`: when the call is
finished before `C(0,0)` is read, the program returns 3780; it can also return 63, the value before the
call. -/
theorem C79_trmm_false :
    (∀ v h', (kkTrmmLeftInPlace kA .upper kC >>= fun _ => Sched.lift (C.get 0 0)) (heap ℝ)
      (.ok (v, h')) → v = 3780) ∧
    ∃ q, Runs (hostTrmmLeftInPlace kA .upper kC >>= fun _ => Host.here (C.get 0 0)) [] (heap ℝ)
      (.ok (63, q, heap ℝ)) := by
  have hs := C48_trmm_left_in_place kA .upper kC (heap ℝ) _ _ (mholds bA) (mholds bC) rfl rfl rfl
    rfl (by kview_facts) (by kview_facts)
  constructor
  · refine fun v h' hr => surely_then_get hs (w := 3780) (fun h₁ v h₂ hq hv => ?_) v h' hr
    have := (mget_of_holds hq.1 (i := 0) (j := 0) (by decide) (by decide)).symm.trans hv
    simp only [Except.ok.injEq, Prod.mk.injEq] at this
    rw [← this.1]
    norm_num [mulMat, Finset.sum_range_succ, triOf, Triangle.region, mvals, kA, A, kC, C]
  · refine C79_trmm_returns_early (.trmmLeftInPlace kA .upper kC) trivial (fun h => ?_) ?_
    · obtain ⟨_, _, h1, -⟩ := hs.2 _ h
      cases h1
    · rw [mget_of_holds (mholds bC) (by decide) (by decide)]
      norm_num [mvals, C]

/-- `scale(exec, 3, x); x(0)`: when the call is finished, -21 is returned; it can also be -7, the value
before the call, whatever the library does. -/
theorem C79_scale_false :
    (∀ v h', (kkScale1 (refLib Uplo.standard abs) 3 kx >>= fun _ => Sched.lift (kx.mdspan.get 0))
      (heap ℝ) (.ok (v, h')) → v = -21) ∧
    ∀ K : KokkosLib ℝ, ∃ q, Runs (hostScale1 K 3 kx >>= fun _ => Host.here (kx.mdspan.get 0)) []
      (heap ℝ) (.ok (-7, q, heap ℝ)) := by
  constructor
  · refine fun v h' hr => surely_then_get (C53_scale_vector _ (refLib_scal ..) 3 kx _ _
      (holds bkx) rfl) (w := -21) (fun h₁ v h₂ hq hv => ?_) v h' hr
    have := (get_of_holds hq.1 (i := 0) (by decide)).symm.trans hv
    simp only [Except.ok.injEq, Prod.mk.injEq] at this
    rw [← this.1]
    norm_num [vals, kx, KVec.mdspan]
  · intro K
    refine ⟨[K.scal1 kx.view 3 kx.view], .submit (.local ?_ .ret)⟩
    rw [get_of_holds (holds bkx) (by decide)]
    norm_num [vals, kx, KVec.mdspan]

theorem Surely.no_exn {s : Sched α Unit} {h : Heap α} {Q : Unit → Heap α → Prop}
    (hs : Surely s h Q) : ∃ h, ¬ s h (.error .exn) := by
  refine ⟨h, fun he => ?_⟩
  obtain ⟨_, _, h1, -⟩ := hs.2 _ he
  cases h1

/-- `scale(exec, 3, x); triangular_matrix_left_product(exec, A, upper, implicit_unit_diagonal, C)`, two calls
that return early. -/
noncomputable def twoCalls : List (BackendCall ℝ) :=
  [.library (.scale1 3 kx), .loops (.trmmLeftInPlace kA .upper kC)]

theorem twoCalls_ok : (∀ c ∈ twoCalls, ¬ c.ReadsAtOnce) ∧
    ∀ c ∈ twoCalls, ∃ h, ¬ c.sched (refLib Uplo.standard abs) h (.error .exn) := by
  refine ⟨?_, ?_⟩ <;> intro c hc <;>
    simp only [twoCalls, List.mem_cons, List.not_mem_nil, or_false] at hc <;>
    rcases hc with rfl | rfl
  · exact not_false
  · exact not_false
  · exact Surely.no_exn (C53_scale_vector _ (refLib_scal ..) 3 kx (heap ℝ) _ (holds bkx) rfl)
  · exact Surely.no_exn (C48_trmm_left_in_place kA .upper kC (heap ℝ) _ _ (mholds bA) (mholds bC)
      rfl rfl rfl rfl (by kview_facts) (by kview_facts))

example : ((Host.forEach twoCalls fun c => c.host (refLib Uplo.standard abs)) >>= fun _ =>
      Host.fenced).FinishesAs (Sched.forEach twoCalls fun c => c.sched (refLib Uplo.standard abs)) :=
  C79_calls_then_fence _ _ twoCalls_ok.1 twoCalls_ok.2

/-- Followed by `symmetric_matrix_vector_product(exec, A, upper, x, y)`, which waits. -/
example : ((Host.forEach twoCalls fun c => c.host (refLib Uplo.standard abs)) >>= fun _ =>
      hostSymv kA .upper kx ky).FinishesAs
    (Sched.forEach twoCalls (fun c => c.sched (refLib Uplo.standard abs)) >>= fun _ =>
      kkSymv kA .upper kx ky) :=
  C79_waiting_call_sees_all _ _ twoCalls_ok.1 twoCalls_ok.2 (.loops (.symv kA .upper kx ky))
    ⟨not_false, not_false⟩ (Surely.no_exn (C48_symv kA .upper kx ky (heap ℝ) _ _ (mholds bA)
      (holds bkx) (alloc bky) rfl rfl rfl rfl rfl rfl (by kview_facts) (by kview_facts)))

/-- `triangular_matrix_vector_solve(exec, A, upper, explicit_diagonal, b, x)`: the host can find the
right-hand side in `x`. -/
example : ∃ q h', Runs (hostTrsv (refLib Uplo.standard abs) kA .upper .explicit kx ky >>= fun _ =>
    Host.here (ky.mdspan.get 1)) [] (heap ℝ) (.ok (-6, q, h')) := by
  have hs := C53_copy_vector _ (refLib_deepCopy Uplo.standard abs) kx ky (heap ℝ) _ (holds bkx)
    (alloc bky) rfl rfl rfl (.inl (by kview_facts))
  have hn := C53_trsv _ (refLib_trsm Uplo.standard abs) (refLib_deepCopy ..) kA .upper .explicit kx ky
    (heap ℝ) _ _ (mholds bA) (holds bkx) (alloc bky) rfl rfl rfl rfl rfl rfl (by kview_facts)
    (.inl (by kview_facts)) fun _ i _ => by
      have : (0 : ℝ) ≤ i := Nat.cast_nonneg i
      simp only [mvals, kA, A]
      push_cast
      linarith
  obtain ⟨⟨r, hr⟩, h2⟩ := hs
  obtain ⟨_, h₁, rfl, hq⟩ := h2 r hr
  obtain ⟨q, hq'⟩ := C79_library_returns_early (refLib Uplo.standard abs)
    (.trsv kA .upper .explicit kx ky) not_false (h := heap ℝ) (h₁ := h₁) (fun he => by
      obtain ⟨_, _, h1, -⟩ := hn.2 _ he
      cases h1) hr
    (next := ky.mdspan.get 1) (get_of_holds hq.1 (by decide))
  refine ⟨q, h₁, ?_⟩
  have : vals ℝ kx.mdspan 1 = -6 := by norm_num [vals, kx, KVec.mdspan]
  rw [← this]
  exact hq'

/-- A 1×1 matrix, cell 5. -/
def k11 : KMat := ⟨⟨1, 1, fun _ _ => 5⟩, false⟩

/-- `scale(exec, 3, A); matrix_frob_norm(exec, A, 0)` with a 1×1 matrix `A`: when the first call is
finished before the second, 6 is returned; it can also be 2, the norm before the first call.  Both calls
have the same policy. -/
theorem C79_frob_norm_false :
    (∀ v h', (kkScale2 (refLib Uplo.standard abs) 3 k11 >>= fun _ => kkFrobNorm 0 k11 0) (heap ℝ)
      (.ok (v, h')) → v = 6) ∧
    ∀ K : KokkosLib ℝ, ∃ q, Runs (hostScale2 K 3 k11 >>= fun _ => hostFrobNorm 0 k11 0) [] (heap ℝ)
      (.ok (2, q, heap ℝ)) := by
  have hb : ∀ i j, i < k11.rows → j < k11.cols → k11.addr i j < 200 :=
    fun _ _ _ _ => show 5 < 200 by decide
  constructor
  · refine fun v h' hr => surely_then_get (C53_scale_matrix _ (refLib_scal ..) 3 k11 _ _
      (mholds hb) rfl ?_) (w := 6) (fun h₁ v h₂ hq hv => ?_) v h' hr
    · intro i j k l hi hj _ hk hl _ _
      simp only [k11] at hi hj hk hl
      omega
    · rw [kkFrobNorm, if_neg (by decide), if_pos (by decide)] at hv
      rcases hv with ⟨_, _, h3⟩ | ⟨a, h3, ha, hv⟩
      · cases h3
      · have := (mget_of_holds hq.1 (i := 0) (j := 0) (by decide) (by decide)).symm.trans ha
        simp only [Except.ok.injEq, Prod.mk.injEq] at this
        cases hv
        rw [← this.1]
        norm_num [mvals, k11, AbsOps.abs]
  · intro K
    refine ⟨[K.scal2 k11.view 3 k11.view], .submit ?_⟩
    change Runs (hostFrobNorm 0 k11 0) _ _ _
    rw [hostFrobNorm, if_neg (by decide), if_pos (by decide)]
    refine .local (mget_of_holds (mholds hb) (by decide) (by decide)) ?_
    have : (0 : ℝ) + AbsOps.abs (mvals ℝ k11.toMat 0 0) = 2 := by
      norm_num [mvals, k11, AbsOps.abs]
    change Runs (.ret (0 + AbsOps.abs (mvals ℝ k11.toMat 0 0))) _ _ _
    rw [this]
    exact .ret

end

end StdBLAS

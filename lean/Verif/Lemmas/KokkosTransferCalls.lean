import Verif.Lemmas.KokkosTransfer

/-!
# The calls of the Kokkos backend respect relations

One lemma for each call.
-/

namespace StdBLAS
variable {α β : Type} {rel : α → β → Prop} {p : Nat → Nat → Prop}
variable [Add α] [Mul α] [Zero α] [ConjOps α] [AbsOps α]
  [Add β] [Mul β] [Zero β] [ConjOps β] [AbsOps β]

set_option hygiene false in
/-- A side condition: related values, equal extents, equal magnitudes. -/
local macro "kside" : tactic =>
  `(tactic| (repeat first
    | with_reducible rfl | assumption
    | with_reducible exact hr.zero
    | with_reducible refine hr.add ?_ ?_
    | with_reducible refine hr.mul ?_ ?_
    | with_reducible refine hr.conj ?_
    | with_reducible exact hr.abs (by assumption)))

set_option hygiene false in
/-- One step through two calls. -/
local macro "kstep1" : tactic =>
  `(tactic| first
    | with_reducible exact Sched.Linked.require (by kside) (by kside)
    | with_reducible refine Sched.Linked.checkSquare ?_ ?_ ?_ <;> assumption
    | with_reducible refine Sched.Linked.checkLeft ?_ ?_ ?_ <;> assumption
    | with_reducible refine Sched.Linked.checkRight ?_ ?_ ?_ <;> assumption
    | with_reducible refine Sched.Linked.checkE ?_ ?_ <;> assumption
    | with_reducible refine Sched.Linked.trmmLeft hp hr _ _ ?_ ?_ ?_ <;> assumption
    | with_reducible refine Sched.Linked.trmmRight hp hr _ _ ?_ ?_ ?_ <;> assumption
    | with_reducible refine Sched.Linked.product hp hr (by assumption) (by assumption) ?_ ?_
    | with_reducible exact Task.Linked.leftTerm hr funRelated_id _ (by assumption) (by assumption) _ _ _
    | with_reducible exact Task.Linked.leftTerm hr hr.funRelated_conj _ (by assumption) (by assumption) _ _ _
    | with_reducible exact Task.Linked.rightTerm hr funRelated_id _ (by assumption) (by assumption) _ _ _
    | with_reducible exact Task.Linked.rightTerm hr hr.funRelated_conj _ (by assumption) (by assumption) _ _ _
    | with_reducible refine Sched.Linked.bind (res := Eq) ?_ fun _ _ _ => ?_
    | with_reducible refine Sched.Linked.parFor hp (by kside) fun i => ?_
    | with_reducible refine Sched.Linked.forEachMatrixElement hp (by assumption) fun i j => ?_
    | with_reducible refine Sched.Linked.forEachTriangleElement hp (by assumption) _ fun i j => ?_
    | with_reducible exact Sched.Linked.pure (by kside)
    | with_reducible refine Task.Linked.bind (res := rel) ?_ fun _ _ _ => ?_
    | with_reducible refine Task.Linked.bind (res := Eq) ?_ fun _ _ _ => ?_
    | with_reducible exact Task.Linked.pure (by kside)
    | with_reducible refine Task.Linked.forUp (by kside) fun i => ?_
    | with_reducible refine Task.Linked.foldUp (by kside) (by kside) fun _ _ i _ => ?_
    | with_reducible refine Task.Linked.vec_rd (by assumption) _
    | with_reducible refine Task.Linked.vec_wr (by assumption) _ (by kside)
    | with_reducible refine Task.Linked.mat_rd (by assumption) _ _
    | with_reducible refine Task.Linked.mat_wr (by assumption) _ _ (by kside)
    | with_reducible refine Task.Linked.incr hr (by assumption) _ _ (by kside)
    | with_reducible exact Task.Linked.symRow hr funRelated_id (by assumption) _ (by assumption) _
    | with_reducible exact Task.Linked.symRow hr hr.funRelated_conj (by assumption) _ (by assumption) _
    | with_reducible exact Task.Linked.triRow hr (by assumption) _ _ (by assumption) _
    | with_reducible refine fun i j k => ?_
    | with_reducible refine fun i j => ?_)

set_option hygiene false in
/-- Through two calls. -/
local macro "kstep" : tactic => `(tactic| (repeat kstep1))

omit [Add α] [Mul α] [Zero α] [ConjOps α] [AbsOps α]
  [Add β] [Mul β] [Zero β] [ConjOps β] [AbsOps β] in
theorem linked_copy2 (hp : OneToOne p) {x x' : KMat} {y y' : KMat}
    (hx : KMat.Moved p x x') (hy : KMat.Moved p y y') :
    Sched.Linked rel p (Eq) (kkCopy2 x y) (kkCopy2 x' y') := by
  have hxv := hx.view
  have hxm := hx.mat
  have hxr := hx.mat.rows
  have hxc := hx.mat.cols
  have hxr' := hx.view.rows
  have hxc' := hx.view.cols
  have hyv := hy.view
  have hym := hy.mat
  have hyr := hy.mat.rows
  have hyc := hy.mat.cols
  have hyr' := hy.view.rows
  have hyc' := hy.view.cols
  unfold kkCopy2
  kstep

omit [Add α] [Mul α] [Zero α] [ConjOps α] [AbsOps α]
  [Add β] [Mul β] [Zero β] [ConjOps β] [AbsOps β] in
theorem linked_swap1 (hp : OneToOne p) {x x' : KVec} {y y' : KVec}
    (hx : KVec.Moved p x x') (hy : KVec.Moved p y y') :
    Sched.Linked rel p (Eq) (kkSwap1 x y) (kkSwap1 x' y') := by
  have hxv := hx.view
  have hxe := hx.ext
  have hxf : x.view.ext = x'.view.ext := hx.ext
  have hyv := hy.view
  have hye := hy.ext
  have hyf : y.view.ext = y'.view.ext := hy.ext
  unfold kkSwap1
  kstep

omit [Add α] [Mul α] [Zero α] [ConjOps α] [AbsOps α]
  [Add β] [Mul β] [Zero β] [ConjOps β] [AbsOps β] in
theorem linked_swap2 (hp : OneToOne p) {x x' : KMat} {y y' : KMat}
    (hx : KMat.Moved p x x') (hy : KMat.Moved p y y') :
    Sched.Linked rel p (Eq) (kkSwap2 x y) (kkSwap2 x' y') := by
  have hxv := hx.view
  have hxm := hx.mat
  have hxr := hx.mat.rows
  have hxc := hx.mat.cols
  have hxr' := hx.view.rows
  have hxc' := hx.view.cols
  have hyv := hy.view
  have hym := hy.mat
  have hyr := hy.mat.rows
  have hyc := hy.mat.cols
  have hyr' := hy.view.rows
  have hyc' := hy.view.cols
  unfold kkSwap2
  kstep

theorem linked_gemvUpdate (hp : OneToOne p) (hr : RespectsKokkos rel) {A A' : KMat} {x x' : KVec} {y y' : KVec} {z z' : KVec}
    (hA : KMat.Moved p A A') (hx : KVec.Moved p x x') (hy : KVec.Moved p y y') (hz : KVec.Moved p z z') :
    Sched.Linked rel p (Eq) (kkGemvUpdate A x y z) (kkGemvUpdate A' x' y' z') := by
  have hAv := hA.view
  have hAm := hA.mat
  have hAr := hA.mat.rows
  have hAc := hA.mat.cols
  have hAr' := hA.view.rows
  have hAc' := hA.view.cols
  have hxv := hx.view
  have hxe := hx.ext
  have hxf : x.view.ext = x'.view.ext := hx.ext
  have hyv := hy.view
  have hye := hy.ext
  have hyf : y.view.ext = y'.view.ext := hy.ext
  have hzv := hz.view
  have hze := hz.ext
  have hzf : z.view.ext = z'.view.ext := hz.ext
  unfold kkGemvUpdate
  kstep

theorem linked_symv (hp : OneToOne p) (hr : RespectsKokkos rel) {A A' : KMat} (t : Triangle) {x x' : KVec} {y y' : KVec}
    (hA : KMat.Moved p A A') (hx : KVec.Moved p x x') (hy : KVec.Moved p y y') :
    Sched.Linked rel p (Eq) (kkSymv A t x y) (kkSymv A' t x' y') := by
  have hAv := hA.view
  have hAm := hA.mat
  have hAr := hA.mat.rows
  have hAc := hA.mat.cols
  have hAr' := hA.view.rows
  have hAc' := hA.view.cols
  have hxv := hx.view
  have hxe := hx.ext
  have hxf : x.view.ext = x'.view.ext := hx.ext
  have hyv := hy.view
  have hye := hy.ext
  have hyf : y.view.ext = y'.view.ext := hy.ext
  unfold kkSymv
  kstep

theorem linked_symvUpdate (hp : OneToOne p) (hr : RespectsKokkos rel) {A A' : KMat} (t : Triangle) {x x' : KVec} {y y' : KVec} {z z' : KVec}
    (hA : KMat.Moved p A A') (hx : KVec.Moved p x x') (hy : KVec.Moved p y y') (hz : KVec.Moved p z z') :
    Sched.Linked rel p (Eq) (kkSymvUpdate A t x y z) (kkSymvUpdate A' t x' y' z') := by
  have hAv := hA.view
  have hAm := hA.mat
  have hAr := hA.mat.rows
  have hAc := hA.mat.cols
  have hAr' := hA.view.rows
  have hAc' := hA.view.cols
  have hxv := hx.view
  have hxe := hx.ext
  have hxf : x.view.ext = x'.view.ext := hx.ext
  have hyv := hy.view
  have hye := hy.ext
  have hyf : y.view.ext = y'.view.ext := hy.ext
  have hzv := hz.view
  have hze := hz.ext
  have hzf : z.view.ext = z'.view.ext := hz.ext
  unfold kkSymvUpdate
  kstep

theorem linked_hemv (hp : OneToOne p) (hr : RespectsKokkos rel) {A A' : KMat} (t : Triangle) {x x' : KVec} {y y' : KVec}
    (hA : KMat.Moved p A A') (hx : KVec.Moved p x x') (hy : KVec.Moved p y y') :
    Sched.Linked rel p (Eq) (kkHemv A t x y) (kkHemv A' t x' y') := by
  have hAv := hA.view
  have hAm := hA.mat
  have hAr := hA.mat.rows
  have hAc := hA.mat.cols
  have hAr' := hA.view.rows
  have hAc' := hA.view.cols
  have hxv := hx.view
  have hxe := hx.ext
  have hxf : x.view.ext = x'.view.ext := hx.ext
  have hyv := hy.view
  have hye := hy.ext
  have hyf : y.view.ext = y'.view.ext := hy.ext
  unfold kkHemv
  kstep

theorem linked_hemvUpdate (hp : OneToOne p) (hr : RespectsKokkos rel) {A A' : KMat} (t : Triangle) {x x' : KVec} {y y' : KVec} {z z' : KVec}
    (hA : KMat.Moved p A A') (hx : KVec.Moved p x x') (hy : KVec.Moved p y y') (hz : KVec.Moved p z z') :
    Sched.Linked rel p (Eq) (kkHemvUpdate A t x y z) (kkHemvUpdate A' t x' y' z') := by
  have hAv := hA.view
  have hAm := hA.mat
  have hAr := hA.mat.rows
  have hAc := hA.mat.cols
  have hAr' := hA.view.rows
  have hAc' := hA.view.cols
  have hxv := hx.view
  have hxe := hx.ext
  have hxf : x.view.ext = x'.view.ext := hx.ext
  have hyv := hy.view
  have hye := hy.ext
  have hyf : y.view.ext = y'.view.ext := hy.ext
  have hzv := hz.view
  have hze := hz.ext
  have hzf : z.view.ext = z'.view.ext := hz.ext
  unfold kkHemvUpdate
  kstep

theorem linked_trmv (hp : OneToOne p) (hr : RespectsKokkos rel) {A A' : KMat} (t : Triangle) (d : Diag) {x x' : KVec} {y y' : KVec}
    (hA : KMat.Moved p A A') (hx : KVec.Moved p x x') (hy : KVec.Moved p y y') :
    Sched.Linked rel p (Eq) (kkTrmv A t d x y) (kkTrmv A' t d x' y') := by
  have hAv := hA.view
  have hAm := hA.mat
  have hAr := hA.mat.rows
  have hAc := hA.mat.cols
  have hAr' := hA.view.rows
  have hAc' := hA.view.cols
  have hxv := hx.view
  have hxe := hx.ext
  have hxf : x.view.ext = x'.view.ext := hx.ext
  have hyv := hy.view
  have hye := hy.ext
  have hyf : y.view.ext = y'.view.ext := hy.ext
  unfold kkTrmv
  kstep

theorem linked_trmvUpdate (hp : OneToOne p) (hr : RespectsKokkos rel) {A A' : KMat} (t : Triangle) (d : Diag) {x x' : KVec} {y y' : KVec} {z z' : KVec}
    (hA : KMat.Moved p A A') (hx : KVec.Moved p x x') (hy : KVec.Moved p y y') (hz : KVec.Moved p z z') :
    Sched.Linked rel p (Eq) (kkTrmvUpdate A t d x y z) (kkTrmvUpdate A' t d x' y' z') := by
  have hAv := hA.view
  have hAm := hA.mat
  have hAr := hA.mat.rows
  have hAc := hA.mat.cols
  have hAr' := hA.view.rows
  have hAc' := hA.view.cols
  have hxv := hx.view
  have hxe := hx.ext
  have hxf : x.view.ext = x'.view.ext := hx.ext
  have hyv := hy.view
  have hye := hy.ext
  have hyf : y.view.ext = y'.view.ext := hy.ext
  have hzv := hz.view
  have hze := hz.ext
  have hzf : z.view.ext = z'.view.ext := hz.ext
  unfold kkTrmvUpdate
  kstep

theorem linked_ger (hp : OneToOne p) (hr : RespectsKokkos rel) {x x' : KVec} {y y' : KVec} {A A' : KMat}
    (hx : KVec.Moved p x x') (hy : KVec.Moved p y y') (hA : KMat.Moved p A A') :
    Sched.Linked rel p (Eq) (kkGer x y A) (kkGer x' y' A') := by
  have hxv := hx.view
  have hxe := hx.ext
  have hxf : x.view.ext = x'.view.ext := hx.ext
  have hyv := hy.view
  have hye := hy.ext
  have hyf : y.view.ext = y'.view.ext := hy.ext
  have hAv := hA.view
  have hAm := hA.mat
  have hAr := hA.mat.rows
  have hAc := hA.mat.cols
  have hAr' := hA.view.rows
  have hAc' := hA.view.cols
  unfold kkGer
  kstep

theorem linked_gerc (hp : OneToOne p) (hr : RespectsKokkos rel) {x x' : KVec} {y y' : KVec} {A A' : KMat}
    (hx : KVec.Moved p x x') (hy : KVec.Moved p y y') (hA : KMat.Moved p A A') :
    Sched.Linked rel p (Eq) (kkGerc x y A) (kkGerc x' y' A') := by
  have hxv := hx.view
  have hxe := hx.ext
  have hxf : x.view.ext = x'.view.ext := hx.ext
  have hyv := hy.view
  have hye := hy.ext
  have hyf : y.view.ext = y'.view.ext := hy.ext
  have hAv := hA.view
  have hAm := hA.mat
  have hAr := hA.mat.rows
  have hAc := hA.mat.cols
  have hAr' := hA.view.rows
  have hAc' := hA.view.cols
  unfold kkGerc
  kstep

theorem linked_syr (hp : OneToOne p) (hr : RespectsKokkos rel) {x x' : KVec} {A A' : KMat} (t : Triangle)
    (hx : KVec.Moved p x x') (hA : KMat.Moved p A A') :
    Sched.Linked rel p (Eq) (kkSyr x A t) (kkSyr x' A' t) := by
  have hxv := hx.view
  have hxe := hx.ext
  have hxf : x.view.ext = x'.view.ext := hx.ext
  have hAv := hA.view
  have hAm := hA.mat
  have hAr := hA.mat.rows
  have hAc := hA.mat.cols
  have hAr' := hA.view.rows
  have hAc' := hA.view.cols
  unfold kkSyr
  kstep

theorem linked_her (hp : OneToOne p) (hr : RespectsKokkos rel) {x x' : KVec} {A A' : KMat} (t : Triangle)
    (hx : KVec.Moved p x x') (hA : KMat.Moved p A A') :
    Sched.Linked rel p (Eq) (kkHer x A t) (kkHer x' A' t) := by
  have hxv := hx.view
  have hxe := hx.ext
  have hxf : x.view.ext = x'.view.ext := hx.ext
  have hAv := hA.view
  have hAm := hA.mat
  have hAr := hA.mat.rows
  have hAc := hA.mat.cols
  have hAr' := hA.view.rows
  have hAc' := hA.view.cols
  unfold kkHer
  kstep

theorem linked_syr2 (hp : OneToOne p) (hr : RespectsKokkos rel) {x x' : KVec} {y y' : KVec} {A A' : KMat} (t : Triangle)
    (hx : KVec.Moved p x x') (hy : KVec.Moved p y y') (hA : KMat.Moved p A A') :
    Sched.Linked rel p (Eq) (kkSyr2 x y A t) (kkSyr2 x' y' A' t) := by
  have hxv := hx.view
  have hxe := hx.ext
  have hxf : x.view.ext = x'.view.ext := hx.ext
  have hyv := hy.view
  have hye := hy.ext
  have hyf : y.view.ext = y'.view.ext := hy.ext
  have hAv := hA.view
  have hAm := hA.mat
  have hAr := hA.mat.rows
  have hAc := hA.mat.cols
  have hAr' := hA.view.rows
  have hAc' := hA.view.cols
  unfold kkSyr2
  kstep

theorem linked_her2 (hp : OneToOne p) (hr : RespectsKokkos rel) {x x' : KVec} {y y' : KVec} {A A' : KMat} (t : Triangle)
    (hx : KVec.Moved p x x') (hy : KVec.Moved p y y') (hA : KMat.Moved p A A') :
    Sched.Linked rel p (Eq) (kkHer2 x y A t) (kkHer2 x' y' A' t) := by
  have hxv := hx.view
  have hxe := hx.ext
  have hxf : x.view.ext = x'.view.ext := hx.ext
  have hyv := hy.view
  have hye := hy.ext
  have hyf : y.view.ext = y'.view.ext := hy.ext
  have hAv := hA.view
  have hAm := hA.mat
  have hAr := hA.mat.rows
  have hAc := hA.mat.cols
  have hAr' := hA.view.rows
  have hAc' := hA.view.cols
  unfold kkHer2
  kstep

theorem linked_syrk (hp : OneToOne p) (hr : RespectsKokkos rel) {alpha : α} {alpha' : β} {A A' : KMat} {C C' : KMat} (t : Triangle)
    (halpha : rel alpha alpha') (hA : KMat.Moved p A A') (hC : KMat.Moved p C C') :
    Sched.Linked rel p (Eq) (kkSyrk alpha A C t) (kkSyrk alpha' A' C' t) := by
  have hAv := hA.view
  have hAm := hA.mat
  have hAr := hA.mat.rows
  have hAc := hA.mat.cols
  have hAr' := hA.view.rows
  have hAc' := hA.view.cols
  have hCv := hC.view
  have hCm := hC.mat
  have hCr := hC.mat.rows
  have hCc := hC.mat.cols
  have hCr' := hC.view.rows
  have hCc' := hC.view.cols
  unfold kkSyrk
  kstep

theorem linked_herk (hp : OneToOne p) (hr : RespectsKokkos rel) {alpha : α} {alpha' : β} {A A' : KMat} {C C' : KMat} (t : Triangle)
    (halpha : rel alpha alpha') (hA : KMat.Moved p A A') (hC : KMat.Moved p C C') :
    Sched.Linked rel p (Eq) (kkHerk alpha A C t) (kkHerk alpha' A' C' t) := by
  have hAv := hA.view
  have hAm := hA.mat
  have hAr := hA.mat.rows
  have hAc := hA.mat.cols
  have hAr' := hA.view.rows
  have hAc' := hA.view.cols
  have hCv := hC.view
  have hCm := hC.mat
  have hCr := hC.mat.rows
  have hCc := hC.mat.cols
  have hCr' := hC.view.rows
  have hCc' := hC.view.cols
  unfold kkHerk
  kstep

theorem linked_syr2k (hp : OneToOne p) (hr : RespectsKokkos rel) {A A' : KMat} {B B' : KMat} {C C' : KMat} (t : Triangle)
    (hA : KMat.Moved p A A') (hB : KMat.Moved p B B') (hC : KMat.Moved p C C') :
    Sched.Linked rel p (Eq) (kkSyr2k A B C t) (kkSyr2k A' B' C' t) := by
  have hAv := hA.view
  have hAm := hA.mat
  have hAr := hA.mat.rows
  have hAc := hA.mat.cols
  have hAr' := hA.view.rows
  have hAc' := hA.view.cols
  have hBv := hB.view
  have hBm := hB.mat
  have hBr := hB.mat.rows
  have hBc := hB.mat.cols
  have hBr' := hB.view.rows
  have hBc' := hB.view.cols
  have hCv := hC.view
  have hCm := hC.mat
  have hCr := hC.mat.rows
  have hCc := hC.mat.cols
  have hCr' := hC.view.rows
  have hCc' := hC.view.cols
  unfold kkSyr2k
  kstep

theorem linked_her2k (hp : OneToOne p) (hr : RespectsKokkos rel) {A A' : KMat} {B B' : KMat} {C C' : KMat} (t : Triangle)
    (hA : KMat.Moved p A A') (hB : KMat.Moved p B B') (hC : KMat.Moved p C C') :
    Sched.Linked rel p (Eq) (kkHer2k A B C t) (kkHer2k A' B' C' t) := by
  have hAv := hA.view
  have hAm := hA.mat
  have hAr := hA.mat.rows
  have hAc := hA.mat.cols
  have hAr' := hA.view.rows
  have hAc' := hA.view.cols
  have hBv := hB.view
  have hBm := hB.mat
  have hBr := hB.mat.rows
  have hBc := hB.mat.cols
  have hBr' := hB.view.rows
  have hBc' := hB.view.cols
  have hCv := hC.view
  have hCm := hC.mat
  have hCr := hC.mat.rows
  have hCc := hC.mat.cols
  have hCr' := hC.view.rows
  have hCc' := hC.view.cols
  unfold kkHer2k
  kstep

theorem linked_symmLeft (hp : OneToOne p) (hr : RespectsKokkos rel) {A A' : KMat} (t : Triangle) {B B' : KMat} {C C' : KMat}
    (hA : KMat.Moved p A A') (hB : KMat.Moved p B B') (hC : KMat.Moved p C C') :
    Sched.Linked rel p (Eq) (kkSymmLeft A t B C) (kkSymmLeft A' t B' C') := by
  have hAv := hA.view
  have hAm := hA.mat
  have hAr := hA.mat.rows
  have hAc := hA.mat.cols
  have hAr' := hA.view.rows
  have hAc' := hA.view.cols
  have hBv := hB.view
  have hBm := hB.mat
  have hBr := hB.mat.rows
  have hBc := hB.mat.cols
  have hBr' := hB.view.rows
  have hBc' := hB.view.cols
  have hCv := hC.view
  have hCm := hC.mat
  have hCr := hC.mat.rows
  have hCc := hC.mat.cols
  have hCr' := hC.view.rows
  have hCc' := hC.view.cols
  unfold kkSymmLeft
  kstep

theorem linked_symmLeftUpdate (hp : OneToOne p) (hr : RespectsKokkos rel) {A A' : KMat} (t : Triangle) {B B' : KMat} {E E' : KMat} {C C' : KMat}
    (hA : KMat.Moved p A A') (hB : KMat.Moved p B B') (hE : KMat.Moved p E E') (hC : KMat.Moved p C C') :
    Sched.Linked rel p (Eq) (kkSymmLeftUpdate A t B E C) (kkSymmLeftUpdate A' t B' E' C') := by
  have hAv := hA.view
  have hAm := hA.mat
  have hAr := hA.mat.rows
  have hAc := hA.mat.cols
  have hAr' := hA.view.rows
  have hAc' := hA.view.cols
  have hBv := hB.view
  have hBm := hB.mat
  have hBr := hB.mat.rows
  have hBc := hB.mat.cols
  have hBr' := hB.view.rows
  have hBc' := hB.view.cols
  have hEv := hE.view
  have hEm := hE.mat
  have hEr := hE.mat.rows
  have hEc := hE.mat.cols
  have hEr' := hE.view.rows
  have hEc' := hE.view.cols
  have hCv := hC.view
  have hCm := hC.mat
  have hCr := hC.mat.rows
  have hCc := hC.mat.cols
  have hCr' := hC.view.rows
  have hCc' := hC.view.cols
  unfold kkSymmLeftUpdate
  kstep

theorem linked_symmRight (hp : OneToOne p) (hr : RespectsKokkos rel) {A A' : KMat} (t : Triangle) {B B' : KMat} {C C' : KMat}
    (hA : KMat.Moved p A A') (hB : KMat.Moved p B B') (hC : KMat.Moved p C C') :
    Sched.Linked rel p (Eq) (kkSymmRight A t B C) (kkSymmRight A' t B' C') := by
  have hAv := hA.view
  have hAm := hA.mat
  have hAr := hA.mat.rows
  have hAc := hA.mat.cols
  have hAr' := hA.view.rows
  have hAc' := hA.view.cols
  have hBv := hB.view
  have hBm := hB.mat
  have hBr := hB.mat.rows
  have hBc := hB.mat.cols
  have hBr' := hB.view.rows
  have hBc' := hB.view.cols
  have hCv := hC.view
  have hCm := hC.mat
  have hCr := hC.mat.rows
  have hCc := hC.mat.cols
  have hCr' := hC.view.rows
  have hCc' := hC.view.cols
  unfold kkSymmRight
  kstep

theorem linked_symmRightUpdate (hp : OneToOne p) (hr : RespectsKokkos rel) {A A' : KMat} (t : Triangle) {B B' : KMat} {E E' : KMat} {C C' : KMat}
    (hA : KMat.Moved p A A') (hB : KMat.Moved p B B') (hE : KMat.Moved p E E') (hC : KMat.Moved p C C') :
    Sched.Linked rel p (Eq) (kkSymmRightUpdate A t B E C) (kkSymmRightUpdate A' t B' E' C') := by
  have hAv := hA.view
  have hAm := hA.mat
  have hAr := hA.mat.rows
  have hAc := hA.mat.cols
  have hAr' := hA.view.rows
  have hAc' := hA.view.cols
  have hBv := hB.view
  have hBm := hB.mat
  have hBr := hB.mat.rows
  have hBc := hB.mat.cols
  have hBr' := hB.view.rows
  have hBc' := hB.view.cols
  have hEv := hE.view
  have hEm := hE.mat
  have hEr := hE.mat.rows
  have hEc := hE.mat.cols
  have hEr' := hE.view.rows
  have hEc' := hE.view.cols
  have hCv := hC.view
  have hCm := hC.mat
  have hCr := hC.mat.rows
  have hCc := hC.mat.cols
  have hCr' := hC.view.rows
  have hCc' := hC.view.cols
  unfold kkSymmRightUpdate
  kstep

theorem linked_hemmLeft (hp : OneToOne p) (hr : RespectsKokkos rel) {A A' : KMat} (t : Triangle) {B B' : KMat} {C C' : KMat}
    (hA : KMat.Moved p A A') (hB : KMat.Moved p B B') (hC : KMat.Moved p C C') :
    Sched.Linked rel p (Eq) (kkHemmLeft A t B C) (kkHemmLeft A' t B' C') := by
  have hAv := hA.view
  have hAm := hA.mat
  have hAr := hA.mat.rows
  have hAc := hA.mat.cols
  have hAr' := hA.view.rows
  have hAc' := hA.view.cols
  have hBv := hB.view
  have hBm := hB.mat
  have hBr := hB.mat.rows
  have hBc := hB.mat.cols
  have hBr' := hB.view.rows
  have hBc' := hB.view.cols
  have hCv := hC.view
  have hCm := hC.mat
  have hCr := hC.mat.rows
  have hCc := hC.mat.cols
  have hCr' := hC.view.rows
  have hCc' := hC.view.cols
  unfold kkHemmLeft
  kstep

theorem linked_hemmLeftUpdate (hp : OneToOne p) (hr : RespectsKokkos rel) {A A' : KMat} (t : Triangle) {B B' : KMat} {E E' : KMat} {C C' : KMat}
    (hA : KMat.Moved p A A') (hB : KMat.Moved p B B') (hE : KMat.Moved p E E') (hC : KMat.Moved p C C') :
    Sched.Linked rel p (Eq) (kkHemmLeftUpdate A t B E C) (kkHemmLeftUpdate A' t B' E' C') := by
  have hAv := hA.view
  have hAm := hA.mat
  have hAr := hA.mat.rows
  have hAc := hA.mat.cols
  have hAr' := hA.view.rows
  have hAc' := hA.view.cols
  have hBv := hB.view
  have hBm := hB.mat
  have hBr := hB.mat.rows
  have hBc := hB.mat.cols
  have hBr' := hB.view.rows
  have hBc' := hB.view.cols
  have hEv := hE.view
  have hEm := hE.mat
  have hEr := hE.mat.rows
  have hEc := hE.mat.cols
  have hEr' := hE.view.rows
  have hEc' := hE.view.cols
  have hCv := hC.view
  have hCm := hC.mat
  have hCr := hC.mat.rows
  have hCc := hC.mat.cols
  have hCr' := hC.view.rows
  have hCc' := hC.view.cols
  unfold kkHemmLeftUpdate
  kstep

theorem linked_hemmRight (hp : OneToOne p) (hr : RespectsKokkos rel) {A A' : KMat} (t : Triangle) {B B' : KMat} {C C' : KMat}
    (hA : KMat.Moved p A A') (hB : KMat.Moved p B B') (hC : KMat.Moved p C C') :
    Sched.Linked rel p (Eq) (kkHemmRight A t B C) (kkHemmRight A' t B' C') := by
  have hAv := hA.view
  have hAm := hA.mat
  have hAr := hA.mat.rows
  have hAc := hA.mat.cols
  have hAr' := hA.view.rows
  have hAc' := hA.view.cols
  have hBv := hB.view
  have hBm := hB.mat
  have hBr := hB.mat.rows
  have hBc := hB.mat.cols
  have hBr' := hB.view.rows
  have hBc' := hB.view.cols
  have hCv := hC.view
  have hCm := hC.mat
  have hCr := hC.mat.rows
  have hCc := hC.mat.cols
  have hCr' := hC.view.rows
  have hCc' := hC.view.cols
  unfold kkHemmRight
  kstep

theorem linked_hemmRightUpdate (hp : OneToOne p) (hr : RespectsKokkos rel) {A A' : KMat} (t : Triangle) {B B' : KMat} {E E' : KMat} {C C' : KMat}
    (hA : KMat.Moved p A A') (hB : KMat.Moved p B B') (hE : KMat.Moved p E E') (hC : KMat.Moved p C C') :
    Sched.Linked rel p (Eq) (kkHemmRightUpdate A t B E C) (kkHemmRightUpdate A' t B' E' C') := by
  have hAv := hA.view
  have hAm := hA.mat
  have hAr := hA.mat.rows
  have hAc := hA.mat.cols
  have hAr' := hA.view.rows
  have hAc' := hA.view.cols
  have hBv := hB.view
  have hBm := hB.mat
  have hBr := hB.mat.rows
  have hBc := hB.mat.cols
  have hBr' := hB.view.rows
  have hBc' := hB.view.cols
  have hEv := hE.view
  have hEm := hE.mat
  have hEr := hE.mat.rows
  have hEc := hE.mat.cols
  have hEr' := hE.view.rows
  have hEc' := hE.view.cols
  have hCv := hC.view
  have hCm := hC.mat
  have hCr := hC.mat.rows
  have hCc := hC.mat.cols
  have hCr' := hC.view.rows
  have hCc' := hC.view.cols
  unfold kkHemmRightUpdate
  kstep

theorem linked_trmmLeft (hp : OneToOne p) (hr : RespectsKokkos rel) {A A' : KMat} (t : Triangle) {B B' : KMat} {C C' : KMat}
    (hA : KMat.Moved p A A') (hB : KMat.Moved p B B') (hC : KMat.Moved p C C') :
    Sched.Linked rel p (Eq) (kkTrmmLeft A t B C) (kkTrmmLeft A' t B' C') := by
  have hAv := hA.view
  have hAm := hA.mat
  have hAr := hA.mat.rows
  have hAc := hA.mat.cols
  have hAr' := hA.view.rows
  have hAc' := hA.view.cols
  have hBv := hB.view
  have hBm := hB.mat
  have hBr := hB.mat.rows
  have hBc := hB.mat.cols
  have hBr' := hB.view.rows
  have hBc' := hB.view.cols
  have hCv := hC.view
  have hCm := hC.mat
  have hCr := hC.mat.rows
  have hCc := hC.mat.cols
  have hCr' := hC.view.rows
  have hCc' := hC.view.cols
  unfold kkTrmmLeft
  kstep

theorem linked_trmmLeftInPlace (hp : OneToOne p) (hr : RespectsKokkos rel) {A A' : KMat} (t : Triangle) {C C' : KMat}
    (hA : KMat.Moved p A A') (hC : KMat.Moved p C C') :
    Sched.Linked rel p (Eq) (kkTrmmLeftInPlace A t C) (kkTrmmLeftInPlace A' t C') := by
  have hAv := hA.view
  have hAm := hA.mat
  have hAr := hA.mat.rows
  have hAc := hA.mat.cols
  have hAr' := hA.view.rows
  have hAc' := hA.view.cols
  have hCv := hC.view
  have hCm := hC.mat
  have hCr := hC.mat.rows
  have hCc := hC.mat.cols
  have hCr' := hC.view.rows
  have hCc' := hC.view.cols
  unfold kkTrmmLeftInPlace
  kstep

theorem linked_trmmRight (hp : OneToOne p) (hr : RespectsKokkos rel) {A A' : KMat} (t : Triangle) {B B' : KMat} {C C' : KMat}
    (hA : KMat.Moved p A A') (hB : KMat.Moved p B B') (hC : KMat.Moved p C C') :
    Sched.Linked rel p (Eq) (kkTrmmRight A t B C) (kkTrmmRight A' t B' C') := by
  have hAv := hA.view
  have hAm := hA.mat
  have hAr := hA.mat.rows
  have hAc := hA.mat.cols
  have hAr' := hA.view.rows
  have hAc' := hA.view.cols
  have hBv := hB.view
  have hBm := hB.mat
  have hBr := hB.mat.rows
  have hBc := hB.mat.cols
  have hBr' := hB.view.rows
  have hBc' := hB.view.cols
  have hCv := hC.view
  have hCm := hC.mat
  have hCr := hC.mat.rows
  have hCc := hC.mat.cols
  have hCr' := hC.view.rows
  have hCc' := hC.view.cols
  unfold kkTrmmRight
  kstep

theorem linked_trmmRightInPlace (hp : OneToOne p) (hr : RespectsKokkos rel) {A A' : KMat} (t : Triangle) {C C' : KMat}
    (hA : KMat.Moved p A A') (hC : KMat.Moved p C C') :
    Sched.Linked rel p (Eq) (kkTrmmRightInPlace A t C) (kkTrmmRightInPlace A' t C') := by
  have hAv := hA.view
  have hAm := hA.mat
  have hAr := hA.mat.rows
  have hAc := hA.mat.cols
  have hAr' := hA.view.rows
  have hAc' := hA.view.cols
  have hCv := hC.view
  have hCm := hC.mat
  have hCr := hC.mat.rows
  have hCc := hC.mat.cols
  have hCr' := hC.view.rows
  have hCc' := hC.view.cols
  unfold kkTrmmRightInPlace
  kstep

theorem linked_dot (hr : RespectsKokkos rel) {x x' : KVec} {y y' : KVec} {init : α} {init' : β}
    (hx : KVec.Moved p x x') (hy : KVec.Moved p y y') (hinit : rel init init') :
    Sched.Linked rel p (rel) (kkDot x y init) (kkDot x' y' init') := by
  have hxv := hx.view
  have hxe := hx.ext
  have hxf : x.view.ext = x'.view.ext := hx.ext
  have hyv := hy.view
  have hye := hy.ext
  have hyf : y.view.ext = y'.view.ext := hy.ext
  unfold kkDot
  refine (Sched.Linked.require hxe hye).bind fun _ _ _ => ?_
  refine (Sched.Linked.reduce (res := rel) hxf hr.zero (fun _ _ _ _ h h' => hr.add h h') ?_).bind
    fun _ _ h => .pure (hr.add h hinit)
  exact fun i _ _ hs => (Rd.Linked.vec_look hxv i).bind fun _ _ ha =>
    (Rd.Linked.vec_look hyv i).bind fun _ _ hb => .pure (hr.add hs (hr.mul ha hb))

theorem linked_absSum (hr : RespectsKokkos rel) {x x' : KVec} (init : ℝ)
    (hx : KVec.Moved p x x') :
    Sched.Linked rel p (Eq) (kkAbsSum x init) (kkAbsSum x' init) := by
  have hxv := hx.view
  have hxe := hx.ext
  have hxf : x.view.ext = x'.view.ext := hx.ext
  unfold kkAbsSum
  refine (Sched.Linked.reduceReal hxf rfl ?_).bind fun _ _ h => .pure (by rw [h])
  exact fun i _ _ hs => (Rd.Linked.vec_look hxv i).bind fun _ _ ha => .pure (by rw [hs, hr.abs ha])

theorem linked_norm2 (hr : RespectsKokkos rel) {x x' : KVec} (init : ℝ)
    (hx : KVec.Moved p x x') :
    Sched.Linked rel p (Eq) (kkNorm2 x init) (kkNorm2 x' init) := by
  have hxv := hx.view
  have hxe := hx.ext
  have hxf : x.view.ext = x'.view.ext := hx.ext
  unfold kkNorm2
  refine (Sched.Linked.reduceReal hxf rfl ?_).bind fun _ _ h => .pure (by rw [h])
  exact fun i _ _ hs => (Rd.Linked.vec_look hxv i).bind fun _ _ ha => .pure (by rw [hs, hr.abs ha])

theorem linked_frobNorm (hr : RespectsKokkos rel) (low : ℝ) {A A' : KMat} (init : ℝ)
    (hA : KMat.Moved p A A') :
    Sched.Linked rel p (Eq) (kkFrobNorm low A init) (kkFrobNorm low A' init) := by
  have hAv := hA.view
  have hAm := hA.mat
  have hAr := hA.mat.rows
  have hAc := hA.mat.cols
  have hAr' := hA.view.rows
  have hAc' := hA.view.cols
  unfold kkFrobNorm
  refine Sched.Linked.ite (by rw [hAr, hAc]) (.pure rfl) ?_
  refine Sched.Linked.ite (by rw [hAr, hAc]) ?_ ?_
  · refine Sched.Linked.bind (res := rel) (.lift fun h k hk => ?_) fun _ _ h => .pure (by rw [hr.abs h])
    exact hAm.get_linked hk 0 0
  have hn : A.view.rows * A.view.cols = A'.view.rows * A'.view.cols := by rw [hAr', hAc']
  have hd : ∀ k, k / A.view.cols = k / A'.view.cols := fun k => by rw [hAc']
  have hm : ∀ k, k % A.view.cols = k % A'.view.cols := fun k => by rw [hAc']
  refine Sched.Linked.bind (res := Eq) (.reduceReal hn rfl fun i _ _ hs => ?_) fun s s' hs => ?_
  · exact (Rd.Linked.mat_look hAv (hd i) (hm i)).bind fun _ _ ha => .pure (by rw [hs, hr.abs ha])
  subst hs
  refine Sched.Linked.bind (res := Eq) (.reduceReal hn rfl fun i _ _ hs => ?_) fun _ _ ht =>
    .pure (by rw [ht])
  exact (Rd.Linked.mat_look hAv (hd i) (hm i)).bind fun _ _ ha =>
    (Rd.Linked.divLook (hr.abs ha) rfl).bind fun _ _ ht => .pure (by rw [hs, ht])

theorem linked_infNorm (hr : RespectsKokkos rel) (low : ℝ) {A A' : KMat} (init : ℝ)
    (hA : KMat.Moved p A A') :
    Sched.Linked rel p (Eq) (kkInfNorm low A init) (kkInfNorm low A' init) := by
  have hAv := hA.view
  have hAm := hA.mat
  have hAr := hA.mat.rows
  have hAc := hA.mat.cols
  have hAr' := hA.view.rows
  have hAc' := hA.view.cols
  unfold kkInfNorm
  refine Sched.Linked.ite (by rw [hAr, hAc]) (.pure rfl) ?_
  refine Sched.Linked.bind (res := Eq) (.reduceReal hAr' rfl fun i _ _ hs => ?_) fun _ _ ht =>
    .pure (by rw [ht])
  refine (Rd.Linked.mat_look hAv rfl rfl).bind fun _ _ ha => ?_
  refine Rd.Linked.bind (res := Eq) (.foldUp hAc' (hr.abs ha) fun _ _ j hs' => ?_) fun _ _ ht =>
    .pure (by rw [hs, ht])
  exact (Rd.Linked.mat_look hAv rfl rfl).bind fun _ _ hb => .pure (by rw [hs', hr.abs hb])

theorem linked_oneNorm (hr : RespectsKokkos rel) (low : ℝ) {A A' : KMat} (init : ℝ)
    (hA : KMat.Moved p A A') :
    Sched.Linked rel p (Eq) (kkOneNorm low A init) (kkOneNorm low A' init) := by
  have hAv := hA.view
  have hAm := hA.mat
  have hAr := hA.mat.rows
  have hAc := hA.mat.cols
  have hAr' := hA.view.rows
  have hAc' := hA.view.cols
  unfold kkOneNorm
  refine Sched.Linked.ite (by rw [hAc]) (.pure rfl) ?_
  refine Sched.Linked.bind (res := Eq) (.reduceReal hAc' rfl fun j _ _ hs => ?_) fun _ _ ht =>
    .pure (by rw [ht])
  refine (Rd.Linked.mat_look hAv rfl rfl).bind fun _ _ ha => ?_
  refine Rd.Linked.bind (res := Eq) (.foldUp hAr' (hr.abs ha) fun _ _ i hs' => ?_) fun _ _ ht =>
    .pure (by rw [hs, ht])
  exact (Rd.Linked.mat_look hAv rfl rfl).bind fun _ _ hb => .pure (by rw [hs', hr.abs hb])

theorem linked_sumOfSquares (hr : RespectsKokkos rel) (low : ℝ) {x x' : KVec} (init : SumOfSquares)
    (hx : KVec.Moved p x x') :
    Sched.Linked rel p (Eq) (kkSumOfSquares low x init) (kkSumOfSquares low x' init) := by
  have hxv := hx.view
  have hxe := hx.ext
  have hxf : x.view.ext = x'.view.ext := hx.ext
  unfold kkSumOfSquares
  refine Sched.Linked.bind (res := Eq) (.reduceReal hxf rfl fun i _ _ hs => ?_) fun s s' hs => ?_
  · exact (Rd.Linked.vec_look hxv i).bind fun _ _ ha => .pure (by rw [hs, hr.abs ha])
  subst hs
  refine Sched.Linked.bind (res := Eq) (.reduceReal hxf rfl fun i _ _ hs => ?_) fun _ _ ht => ?_
  · exact (Rd.Linked.vec_look hxv i).bind fun _ _ ha => (Rd.Linked.divLook (hr.abs ha) rfl).bind
      fun _ _ ht => .pure (by rw [hs, ht])
  subst ht
  refine Sched.Linked.bind (res := Eq) (.lift fun h k hk => ?_) fun _ _ h => .pure (by rw [h])
  unfold divChecked
  split
  · exact .error _
  · exact .ok _ _ _ _ rfl hk

theorem linked_calls (hp : OneToOne p) (hr : RespectsKokkos rel) {c : KCall α} {d : KCall β}
    (H : KCall.Linked rel p c d) : Sched.Linked rel p Eq c.sched d.sched := by
  cases H with
  | copy2 _ _ _ _ hx hy => exact linked_copy2 hp  hx hy
  | swap1 _ _ _ _ hx hy => exact linked_swap1 hp  hx hy
  | swap2 _ _ _ _ hx hy => exact linked_swap2 hp  hx hy
  | gemvUpdate _ _ _ _ _ _ _ _ hA hx hy hz => exact linked_gemvUpdate hp hr  hA hx hy hz
  | symv _ _ _ _ _ _ _ hA hx hy => exact linked_symv hp hr _ hA hx hy
  | symvUpdate _ _ _ _ _ _ _ _ _ hA hx hy hz => exact linked_symvUpdate hp hr _ hA hx hy hz
  | hemv _ _ _ _ _ _ _ hA hx hy => exact linked_hemv hp hr _ hA hx hy
  | hemvUpdate _ _ _ _ _ _ _ _ _ hA hx hy hz => exact linked_hemvUpdate hp hr _ hA hx hy hz
  | trmv _ _ _ _ _ _ _ _ hA hx hy => exact linked_trmv hp hr _ _ hA hx hy
  | trmvUpdate _ _ _ _ _ _ _ _ _ _ hA hx hy hz => exact linked_trmvUpdate hp hr _ _ hA hx hy hz
  | ger _ _ _ _ _ _ hx hy hA => exact linked_ger hp hr  hx hy hA
  | gerc _ _ _ _ _ _ hx hy hA => exact linked_gerc hp hr  hx hy hA
  | syr _ _ _ _ _ hx hA => exact linked_syr hp hr _ hx hA
  | her _ _ _ _ _ hx hA => exact linked_her hp hr _ hx hA
  | syr2 _ _ _ _ _ _ _ hx hy hA => exact linked_syr2 hp hr _ hx hy hA
  | her2 _ _ _ _ _ _ _ hx hy hA => exact linked_her2 hp hr _ hx hy hA
  | syrk _ _ _ _ _ _ _ halpha hA hC => exact linked_syrk hp hr _ halpha hA hC
  | herk _ _ _ _ _ _ _ halpha hA hC => exact linked_herk hp hr _ halpha hA hC
  | syr2k _ _ _ _ _ _ _ hA hB hC => exact linked_syr2k hp hr _ hA hB hC
  | her2k _ _ _ _ _ _ _ hA hB hC => exact linked_her2k hp hr _ hA hB hC
  | symmLeft _ _ _ _ _ _ _ hA hB hC => exact linked_symmLeft hp hr _ hA hB hC
  | symmLeftUpdate _ _ _ _ _ _ _ _ _ hA hB hE hC => exact linked_symmLeftUpdate hp hr _ hA hB hE hC
  | symmRight _ _ _ _ _ _ _ hA hB hC => exact linked_symmRight hp hr _ hA hB hC
  | symmRightUpdate _ _ _ _ _ _ _ _ _ hA hB hE hC => exact linked_symmRightUpdate hp hr _ hA hB hE hC
  | hemmLeft _ _ _ _ _ _ _ hA hB hC => exact linked_hemmLeft hp hr _ hA hB hC
  | hemmLeftUpdate _ _ _ _ _ _ _ _ _ hA hB hE hC => exact linked_hemmLeftUpdate hp hr _ hA hB hE hC
  | hemmRight _ _ _ _ _ _ _ hA hB hC => exact linked_hemmRight hp hr _ hA hB hC
  | hemmRightUpdate _ _ _ _ _ _ _ _ _ hA hB hE hC => exact linked_hemmRightUpdate hp hr _ hA hB hE hC
  | trmmLeft _ _ _ _ _ _ _ hA hB hC => exact linked_trmmLeft hp hr _ hA hB hC
  | trmmLeftInPlace _ _ _ _ _ hA hC => exact linked_trmmLeftInPlace hp hr _ hA hC
  | trmmRight _ _ _ _ _ _ _ hA hB hC => exact linked_trmmRight hp hr _ hA hB hC
  | trmmRightInPlace _ _ _ _ _ hA hC => exact linked_trmmRightInPlace hp hr _ hA hC
  | dot _ _ _ _ _ _ _ _ _ _ hx hy hinit hf ho => exact (linked_dot hr  hx hy hinit).into hp (fun _ _ h => hf h) ho
  | absSum _ _ _ _ _ _ _ hx hf ho => exact (linked_absSum hr _ hx).into hp (fun _ _ h => h ▸ hf _) ho
  | norm2 _ _ _ _ _ _ _ hx hf ho => exact (linked_norm2 hr _ hx).into hp (fun _ _ h => h ▸ hf _) ho
  | frobNorm _ _ _ _ _ _ _ _ hA hf ho => exact (linked_frobNorm hr _ _ hA).into hp (fun _ _ h => h ▸ hf _) ho
  | infNorm _ _ _ _ _ _ _ _ hA hf ho => exact (linked_infNorm hr _ _ hA).into hp (fun _ _ h => h ▸ hf _) ho
  | oneNorm _ _ _ _ _ _ _ _ hA hf ho => exact (linked_oneNorm hr _ _ hA).into hp (fun _ _ h => h ▸ hf _) ho
  | sumOfSquares _ _ _ _ _ _ _ _ hx hf ho => exact (linked_sumOfSquares hr _ _ hx).into hp (fun _ _ h => h ▸ hf _) ho

end StdBLAS

import Verif.Lemmas.Transfer

/-!
# Lemmas for C76: the norms, over two element types
-/

namespace StdBLAS
variable {α β R S : Type} {rel : α → β → Prop} {srel : R → S → Prop}
  [Zero R] [One R] [Add R] [Mul R] [Div R] [FloatOps R] [MagOps α R]
  [Zero S] [One S] [Add S] [Mul S] [Div S] [FloatOps S] [MagOps β S]

theorem related_sumOfSquares (H : RespectsNorms rel srel) {x : VecV α} {x' : VecV β}
    {init : SumOfSquaresOf R} {init' : SumOfSquaresOf S} (hx : VecV.Related rel x x')
    (hi : SumOfSquaresOf.Related srel init init') :
    Prog.Related rel (SumOfSquaresOf.Related srel) (vectorSumOfSquaresOf x init)
      (vectorSumOfSquaresOf x' init') := by
  obtain ⟨x, f, g, rfl, rfl, qx⟩ := hx.elim
  unfold vectorSumOfSquaresOf
  refine related_ite (related_pure hi) ?_
  refine related_foldEach _ hi fun s t i hst => ?_
  refine related_bind (related_vecV_get qx i) fun a b hab => ?_
  refine related_ite_bool (H.ne (H.abs hab) H.zero) ?_ (related_pure hst)
  refine related_bind (related_vecV_get qx i) fun a b hab => ?_
  dsimp only
  have ha := H.abs hab
  refine related_ite_bool (H.lt hst.scale ha) (related_pure ?_) (related_pure ?_)
  · have hq := H.div hst.scale ha
    exact ⟨ha, H.add H.one (H.mul (H.mul hst.sum hq) hq)⟩
  · have hq := H.div ha hst.scale
    exact ⟨hst.scale, H.add hst.sum (H.mul hq hq)⟩

theorem related_twoNorm (H : RespectsNorms rel srel) {x : VecV α} {x' : VecV β} {init : R} {init' : S}
    (hx : VecV.Related rel x x') (hi : srel init init') :
    Prog.Related rel srel (vectorTwoNormOf x init) (vectorTwoNormOf x' init') :=
  related_bind (related_sumOfSquares H hx ⟨H.zero, H.one⟩) fun _ _ h =>
    related_pure (H.add hi (H.mul h.scale (H.sqrt h.sum)))

omit [Zero R] [One R] [Mul R] [Div R] [FloatOps R] in
/-- Reading an element a second time gives the same value. -/
theorem vectorAbsSumOf_once (x : VecV α) (init : R) :
    vectorAbsSumOf x init = foldEach (List.range' 0 x.ext) init fun s i =>
      (x.get i >>= fun a => pure (addMagnitude s a)) := by
  unfold vectorAbsSumOf
  by_cases hA : MagOps.isArith α R = true
  · rw [if_pos hA]
    congr 1
    funext s i
    congr 1
    funext a
    unfold addMagnitude
    rw [if_pos hA]
  · rw [if_neg hA]
    congr 1
    funext s i h
    change Prog.seq _ _ h = Prog.seq _ _ h
    unfold Prog.seq
    cases e : x.get i h with
    | error => rfl
    | ok p =>
      obtain ⟨a, h'⟩ := p
      have hh : h' = h := by
        unfold VecV.get at e
        split at e
        · change Prog.seq _ _ h = _ at e
          unfold Prog.seq Prog.load at e
          cases e2 : h (x.addr i) with
          | none => rw [e2] at e; cases e
          | some v => rw [e2] at e; cases e; rfl
        · cases e
      subst hh
      change Prog.seq _ _ h' = _
      unfold Prog.seq
      rw [e]
      change _ = Except.ok (addMagnitude s a, h')
      unfold addMagnitude
      rw [if_neg hA]
      rfl

theorem related_absSum (H : RespectsNorms rel srel) {x : VecV α} {x' : VecV β} {init : R} {init' : S}
    (hx : VecV.Related rel x x') (hi : srel init init') :
    Prog.Related rel srel (vectorAbsSumOf x init) (vectorAbsSumOf x' init') := by
  rw [vectorAbsSumOf_once, vectorAbsSumOf_once]
  obtain ⟨x, f, g, rfl, rfl, qx⟩ := hx.elim
  exact related_foldEach _ hi fun s t i hst =>
    related_bind (related_vecV_get qx i) fun a b hab => related_pure (H.addMagnitude hst hab)

theorem related_idxAbsMax (H : RespectsNorms rel srel) {x : VecV α} {x' : VecV β} (sizeMax : Nat)
    (hx : VecV.Related rel x x') :
    Prog.Related rel (fun i j => i = j) (vectorIdxAbsMaxOf R sizeMax x)
      (vectorIdxAbsMaxOf S sizeMax x') := by
  obtain ⟨x, f, g, rfl, rfl, qx⟩ := hx.elim
  unfold vectorIdxAbsMaxOf
  refine related_ite (related_pure rfl) ?_
  refine related_bind (related_vecV_get qx 0) fun a b hab => ?_
  refine related_bind (res := fun (p : Nat × R) (q : Nat × S) => p.1 = q.1 ∧ srel p.2 q.2)
    (related_foldEach _ ⟨rfl, H.idxMagnitude hab⟩ fun s t i hst => ?_)
    fun _ _ h => related_pure h.1
  refine related_bind (related_vecV_get qx i) fun a b hab => ?_
  have hm := H.idxMagnitude hab
  exact related_ite_bool (H.lt hst.2 hm) (related_pure ⟨rfl, hm⟩) (related_pure hst)

theorem related_frobStep (H : RespectsNorms rel srel) {s : SumOfSquaresOf R} {t : SumOfSquaresOf S}
    {a : R} {b : S} (hst : SumOfSquaresOf.Related srel s t) (ha : srel a b) :
    SumOfSquaresOf.Related srel (frobStepOf s a) (frobStepOf t b) := by
  unfold frobStepOf
  rw [H.ne ha H.zero]
  split
  · dsimp only
    have hq := H.div hst.scale ha
    rw [H.lt hst.scale ha]
    split
    · exact ⟨ha, H.add H.one (H.mul (H.mul hst.sum hq) hq)⟩
    · exact ⟨hst.scale, H.add hst.sum (H.mul hq hq)⟩
  · exact hst

theorem related_stdMax (H : RespectsNorms rel srel) {a c : R} {b d : S} (h1 : srel a b)
    (h2 : srel c d) : srel (stdMax a c) (stdMax b d) := by
  unfold stdMax
  rw [H.lt h1 h2]
  split
  · exact h2
  · exact h1

theorem related_frobNorm (H : RespectsNorms rel srel) {A : MatV α} {A' : MatV β} {init : R} {init' : S}
    (hA : MatV.Related rel A A') (hi : srel init init') :
    Prog.Related rel srel (matrixFrobNormOf A init) (matrixFrobNormOf A' init') := by
  obtain ⟨A, f, g, rfl, rfl, qA⟩ := hA.elim
  unfold matrixFrobNormOf
  refine related_ite (related_pure hi) (related_ite ?_ ?_)
  · exact related_bind (related_matV_get qA 0 0) fun _ _ h => related_pure (H.add hi (H.abs h))
  · refine related_bind (res := SumOfSquaresOf.Related srel) ?_ fun _ _ h =>
      related_pure (H.add hi (H.mul h.scale (H.sqrt h.sum)))
    refine related_foldEach _ ⟨H.zero, H.one⟩ fun s t i hst => related_foldEach _ hst fun s t j hst => ?_
    exact related_bind (related_matV_get qA i j) fun _ _ h =>
      related_pure (related_frobStep H hst (H.abs h))

theorem related_oneNorm (H : RespectsNorms rel srel) {A : MatV α} {A' : MatV β} {init : R} {init' : S}
    (hA : MatV.Related rel A A') (hi : srel init init') :
    Prog.Related rel srel (matrixOneNormOf A init) (matrixOneNormOf A' init') := by
  obtain ⟨A, f, g, rfl, rfl, qA⟩ := hA.elim
  unfold matrixOneNormOf
  refine related_ite (related_pure hi) (related_ite ?_ ?_)
  · exact related_bind (related_matV_get qA 0 0) fun _ _ h => related_pure (H.add hi (H.abs h))
  · refine related_foldEach _ hi fun s t j hst => ?_
    refine related_bind (res := srel) (related_foldEach _ hi fun s t i hst => ?_) fun _ _ h =>
      related_pure (related_stdMax H h hst)
    exact related_bind (related_matV_get qA i j) fun _ _ h => related_pure (H.add hst (H.abs h))

theorem related_infNorm (H : RespectsNorms rel srel) {A : MatV α} {A' : MatV β} {init : R} {init' : S}
    (hA : MatV.Related rel A A') (hi : srel init init') :
    Prog.Related rel srel (matrixInfNormOf A init) (matrixInfNormOf A' init') := by
  obtain ⟨A, f, g, rfl, rfl, qA⟩ := hA.elim
  unfold matrixInfNormOf
  refine related_ite (related_pure hi) (related_ite ?_ ?_)
  · exact related_bind (related_matV_get qA 0 0) fun _ _ h => related_pure (H.add hi (H.abs h))
  · refine related_foldEach _ hi fun s t i hst => ?_
    refine related_bind (res := srel) (related_foldEach _ hi fun s t j hst => ?_) fun _ _ h =>
      related_pure (related_stdMax H h hst)
    exact related_bind (related_matV_get qA i j) fun _ _ h => related_pure (H.add hst (H.abs h))

theorem related_into {γ δ : Type} {res : γ → δ → Prop} {p : Prog α γ} {q : Prog β δ} {f : γ → α}
    {g : δ → β} (hp : Prog.Related rel res p q) (hf : FunRelated res rel f g) (out : Nat) :
    Prog.Related rel Void (p.into f out) (q.into g out) :=
  related_bind hp fun _ _ h => related_store out (hf h)

end StdBLAS

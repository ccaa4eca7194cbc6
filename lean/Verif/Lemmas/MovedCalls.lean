import Verif.Lemmas.Moved

/-!
# Lemmas for C77: every algorithm, on arguments in other places
-/

namespace StdBLAS
variable {α R : Type} {p : Nat → Nat → Prop}

theorem moved_scale1 [Add α] [Sub α] [Mul α] [Div α] [Zero α] [ConjOps α] (H : OneToOne p)
        (alpha : α) {x x' : Vec}
    (hx : Vec.Moved p x x') :
    Prog.Moved p (scale1 alpha x : Prog α Unit) (scale1 alpha x') := by
  obtain ⟨n_x, a_x, b_x, rfl, rfl, q_x⟩ := hx.elim
  unfold scale1
  dsimp only
  relocate H

theorem moved_scale2 [Add α] [Sub α] [Mul α] [Div α] [Zero α] [ConjOps α] (H : OneToOne p)
        (alpha : α) {A A' : Mat}
    (hA : Mat.Moved p A A') :
    Prog.Moved p (scale2 alpha A : Prog α Unit) (scale2 alpha A') := by
  obtain ⟨m_A, n_A, a_A, b_A, rfl, rfl, q_A⟩ := hA.elim
  unfold scale2
  dsimp only
  relocate H

theorem moved_copy1 [Add α] [Sub α] [Mul α] [Div α] [Zero α] [ConjOps α] (H : OneToOne p) {x x' : VecV α} {y y' : Vec}
    (hx : VecV.Moved p x x') (hy : Vec.Moved p y y') :
    Prog.Moved p (copy1 x y : Prog α Unit) (copy1 x' y') := by
  obtain ⟨n_x, a_x, b_x, f_x, rfl, rfl, q_x⟩ := hx.elim
  obtain ⟨n_y, a_y, b_y, rfl, rfl, q_y⟩ := hy.elim
  unfold copy1
  dsimp only
  relocate H

theorem moved_copy2 [Add α] [Sub α] [Mul α] [Div α] [Zero α] [ConjOps α] (H : OneToOne p) {x x' : MatV α} {y y' : Mat}
    (hx : MatV.Moved p x x') (hy : Mat.Moved p y y') :
    Prog.Moved p (copy2 x y : Prog α Unit) (copy2 x' y') := by
  obtain ⟨m_x, n_x, a_x, b_x, f_x, rfl, rfl, q_x⟩ := hx.elim
  obtain ⟨m_y, n_y, a_y, b_y, rfl, rfl, q_y⟩ := hy.elim
  unfold copy2
  dsimp only
  relocate H

theorem moved_swap1 [Add α] [Sub α] [Mul α] [Div α] [Zero α] [ConjOps α] (H : OneToOne p) {x x' : Vec} {y y' : Vec}
    (hx : Vec.Moved p x x') (hy : Vec.Moved p y y') :
    Prog.Moved p (swap1 x y : Prog α Unit) (swap1 x' y') := by
  obtain ⟨n_x, a_x, b_x, rfl, rfl, q_x⟩ := hx.elim
  obtain ⟨n_y, a_y, b_y, rfl, rfl, q_y⟩ := hy.elim
  unfold swap1
  dsimp only
  relocate H

theorem moved_swap2 [Add α] [Sub α] [Mul α] [Div α] [Zero α] [ConjOps α] (H : OneToOne p) {x x' : Mat} {y y' : Mat}
    (hx : Mat.Moved p x x') (hy : Mat.Moved p y y') :
    Prog.Moved p (swap2 x y : Prog α Unit) (swap2 x' y') := by
  obtain ⟨m_x, n_x, a_x, b_x, rfl, rfl, q_x⟩ := hx.elim
  obtain ⟨m_y, n_y, a_y, b_y, rfl, rfl, q_y⟩ := hy.elim
  unfold swap2
  dsimp only
  relocate H

theorem moved_add1 [Add α] [Sub α] [Mul α] [Div α] [Zero α] [ConjOps α] (H : OneToOne p) {x x' : VecV α} {y y' : VecV α} {z z' : Vec}
    (hx : VecV.Moved p x x') (hy : VecV.Moved p y y') (hz : Vec.Moved p z z') :
    Prog.Moved p (add1 x y z : Prog α Unit) (add1 x' y' z') := by
  obtain ⟨n_x, a_x, b_x, f_x, rfl, rfl, q_x⟩ := hx.elim
  obtain ⟨n_y, a_y, b_y, f_y, rfl, rfl, q_y⟩ := hy.elim
  obtain ⟨n_z, a_z, b_z, rfl, rfl, q_z⟩ := hz.elim
  unfold add1
  dsimp only
  relocate H

theorem moved_add2 [Add α] [Sub α] [Mul α] [Div α] [Zero α] [ConjOps α] (H : OneToOne p) {x x' : MatV α} {y y' : MatV α} {z z' : Mat}
    (hx : MatV.Moved p x x') (hy : MatV.Moved p y y') (hz : Mat.Moved p z z') :
    Prog.Moved p (add2 x y z : Prog α Unit) (add2 x' y' z') := by
  obtain ⟨m_x, n_x, a_x, b_x, f_x, rfl, rfl, q_x⟩ := hx.elim
  obtain ⟨m_y, n_y, a_y, b_y, f_y, rfl, rfl, q_y⟩ := hy.elim
  obtain ⟨m_z, n_z, a_z, b_z, rfl, rfl, q_z⟩ := hz.elim
  unfold add2
  dsimp only
  relocate H

theorem moved_givens [Add α] [Sub α] [Mul α] [Div α] [Zero α] [ConjOps α] (H : OneToOne p) {x x' : Vec} {y y' : Vec} (c : α) (s : α)
    (hx : Vec.Moved p x x') (hy : Vec.Moved p y y') :
    Prog.Moved p (applyGivens x y c s : Prog α Unit) (applyGivens x' y' c s) := by
  obtain ⟨n_x, a_x, b_x, rfl, rfl, q_x⟩ := hx.elim
  obtain ⟨n_y, a_y, b_y, rfl, rfl, q_y⟩ := hy.elim
  unfold applyGivens
  dsimp only
  relocate H

theorem moved_givensC [Add α] [Sub α] [Mul α] [Div α] [Zero α] [ConjOps α] (H : OneToOne p) {x x' : Vec} {y y' : Vec} (c : α) (s : α)
    (hx : Vec.Moved p x x') (hy : Vec.Moved p y y') :
    Prog.Moved p (applyGivensC x y c s : Prog α Unit) (applyGivensC x' y' c s) := by
  obtain ⟨n_x, a_x, b_x, rfl, rfl, q_x⟩ := hx.elim
  obtain ⟨n_y, a_y, b_y, rfl, rfl, q_y⟩ := hy.elim
  unfold applyGivensC
  dsimp only
  relocate H

theorem moved_dot [Add α] [Sub α] [Mul α] [Div α] [Zero α] [ConjOps α] (_H : OneToOne p) {v1 v1' : VecV α} {v2 v2' : VecV α} (init : α)
    (hv1 : VecV.Moved p v1 v1') (hv2 : VecV.Moved p v2 v2') :
    Prog.Moved p (dot v1 v2 init : Prog α α) (dot v1' v2' init) := by
  obtain ⟨n_v1, a_v1, b_v1, f_v1, rfl, rfl, q_v1⟩ := hv1.elim
  obtain ⟨n_v2, a_v2, b_v2, f_v2, rfl, rfl, q_v2⟩ := hv2.elim
  unfold dot
  dsimp only
  relocate _H

theorem moved_dotc [Add α] [Sub α] [Mul α] [Div α] [Zero α] [ConjOps α] (_H : OneToOne p) {v1 v1' : VecV α} {v2 v2' : VecV α} (init : α)
    (hv1 : VecV.Moved p v1 v1') (hv2 : VecV.Moved p v2 v2') :
    Prog.Moved p (dotc v1 v2 init : Prog α α) (dotc v1' v2' init) := by
  obtain ⟨n_v1, a_v1, b_v1, f_v1, rfl, rfl, q_v1⟩ := hv1.elim
  obtain ⟨n_v2, a_v2, b_v2, f_v2, rfl, rfl, q_v2⟩ := hv2.elim
  unfold dotc
  unfold VecV.conjugated
  unfold dot
  dsimp only
  relocate _H

theorem moved_sumOfSquares [Zero R] [One R] [Add R] [Mul R] [Div R] [FloatOps R] [MagOps α R] (_H : OneToOne p) {x x' : VecV α} (init : SumOfSquaresOf R)
    (hx : VecV.Moved p x x') :
    Prog.Moved p (vectorSumOfSquaresOf x init : Prog α (SumOfSquaresOf R))
        (vectorSumOfSquaresOf x' init) := by
  obtain ⟨n_x, a_x, b_x, f_x, rfl, rfl, q_x⟩ := hx.elim
  unfold vectorSumOfSquaresOf
  dsimp only
  relocate _H

theorem moved_twoNorm [Zero R] [One R] [Add R] [Mul R] [Div R] [FloatOps R] [MagOps α R] (_H : OneToOne p) {x x' : VecV α} (init : R)
    (hx : VecV.Moved p x x') :
    Prog.Moved p (vectorTwoNormOf x init : Prog α R) (vectorTwoNormOf x' init) := by
  obtain ⟨n_x, a_x, b_x, f_x, rfl, rfl, q_x⟩ := hx.elim
  unfold vectorTwoNormOf
  unfold vectorSumOfSquaresOf
  dsimp only
  relocate _H

theorem moved_absSum [Zero R] [One R] [Add R] [Mul R] [Div R] [FloatOps R] [MagOps α R] (_H : OneToOne p) {x x' : VecV α} (init : R)
    (hx : VecV.Moved p x x') :
    Prog.Moved p (vectorAbsSumOf x init : Prog α R) (vectorAbsSumOf x' init) := by
  obtain ⟨n_x, a_x, b_x, f_x, rfl, rfl, q_x⟩ := hx.elim
  unfold vectorAbsSumOf
  dsimp only
  relocate _H

theorem moved_idxAbsMax [Zero R] [One R] [Add R] [Mul R] [Div R] [FloatOps R] [MagOps α R] (_H : OneToOne p) (sizeMax : Nat) {x x' : VecV α}
    (hx : VecV.Moved p x x') :
    Prog.Moved p (vectorIdxAbsMaxOf R sizeMax x : Prog α Nat) (vectorIdxAbsMaxOf R sizeMax x') := by
  obtain ⟨n_x, a_x, b_x, f_x, rfl, rfl, q_x⟩ := hx.elim
  unfold vectorIdxAbsMaxOf
  dsimp only
  relocate _H

theorem moved_frobNorm [Zero R] [One R] [Add R] [Mul R] [Div R] [FloatOps R] [MagOps α R] (_H : OneToOne p) {A A' : MatV α} (init : R)
    (hA : MatV.Moved p A A') :
    Prog.Moved p (matrixFrobNormOf A init : Prog α R) (matrixFrobNormOf A' init) := by
  obtain ⟨m_A, n_A, a_A, b_A, f_A, rfl, rfl, q_A⟩ := hA.elim
  unfold matrixFrobNormOf
  dsimp only
  relocate _H

theorem moved_oneNorm [Zero R] [One R] [Add R] [Mul R] [Div R] [FloatOps R] [MagOps α R] (_H : OneToOne p) {A A' : MatV α} (init : R)
    (hA : MatV.Moved p A A') :
    Prog.Moved p (matrixOneNormOf A init : Prog α R) (matrixOneNormOf A' init) := by
  obtain ⟨m_A, n_A, a_A, b_A, f_A, rfl, rfl, q_A⟩ := hA.elim
  unfold matrixOneNormOf
  dsimp only
  relocate _H

theorem moved_infNorm [Zero R] [One R] [Add R] [Mul R] [Div R] [FloatOps R] [MagOps α R] (_H : OneToOne p) {A A' : MatV α} (init : R)
    (hA : MatV.Moved p A A') :
    Prog.Moved p (matrixInfNormOf A init : Prog α R) (matrixInfNormOf A' init) := by
  obtain ⟨m_A, n_A, a_A, b_A, f_A, rfl, rfl, q_A⟩ := hA.elim
  unfold matrixInfNormOf
  dsimp only
  relocate _H

theorem moved_gemv [Add α] [Sub α] [Mul α] [Div α] [Zero α] [ConjOps α] (H : OneToOne p) {A A' : MatV α} {x x' : VecV α} {y y' : Vec}
    (hA : MatV.Moved p A A') (hx : VecV.Moved p x x') (hy : Vec.Moved p y y') :
    Prog.Moved p (gemv A x y : Prog α Unit) (gemv A' x' y') := by
  obtain ⟨m_A, n_A, a_A, b_A, f_A, rfl, rfl, q_A⟩ := hA.elim
  obtain ⟨n_x, a_x, b_x, f_x, rfl, rfl, q_x⟩ := hx.elim
  obtain ⟨n_y, a_y, b_y, rfl, rfl, q_y⟩ := hy.elim
  unfold gemv
  dsimp only
  relocate H

theorem moved_gemvUpdate [Add α] [Sub α] [Mul α] [Div α] [Zero α] [ConjOps α] (H : OneToOne p) {A A' : MatV α} {x x' : VecV α} {y y' : VecV α} {z z' : Vec}
    (hA : MatV.Moved p A A') (hx : VecV.Moved p x x') (hy : VecV.Moved p y y')
        (hz : Vec.Moved p z z') :
    Prog.Moved p (gemvUpdate A x y z : Prog α Unit) (gemvUpdate A' x' y' z') := by
  obtain ⟨m_A, n_A, a_A, b_A, f_A, rfl, rfl, q_A⟩ := hA.elim
  obtain ⟨n_x, a_x, b_x, f_x, rfl, rfl, q_x⟩ := hx.elim
  obtain ⟨n_y, a_y, b_y, f_y, rfl, rfl, q_y⟩ := hy.elim
  obtain ⟨n_z, a_z, b_z, rfl, rfl, q_z⟩ := hz.elim
  unfold gemvUpdate
  dsimp only
  relocate H

theorem moved_symv [Add α] [Sub α] [Mul α] [Div α] [Zero α] [ConjOps α] (H : OneToOne p) {A A' : MatV α} (t : Triangle) {x x' : VecV α} {y y' : Vec}
    (hA : MatV.Moved p A A') (hx : VecV.Moved p x x') (hy : Vec.Moved p y y') :
    Prog.Moved p (symv A t x y : Prog α Unit) (symv A' t x' y') := by
  obtain ⟨m_A, n_A, a_A, b_A, f_A, rfl, rfl, q_A⟩ := hA.elim
  obtain ⟨n_x, a_x, b_x, f_x, rfl, rfl, q_x⟩ := hx.elim
  obtain ⟨n_y, a_y, b_y, rfl, rfl, q_y⟩ := hy.elim
  cases t <;> (
    unfold symv
    unfold fillZero symvAcc
    dsimp only
    relocate H)

theorem moved_symvUpdate [Add α] [Sub α] [Mul α] [Div α] [Zero α] [ConjOps α] (H : OneToOne p) {A A' : MatV α} (t : Triangle) {x x' : VecV α} {y y' : VecV α} {z z' : Vec}
    (hA : MatV.Moved p A A') (hx : VecV.Moved p x x') (hy : VecV.Moved p y y')
        (hz : Vec.Moved p z z') :
    Prog.Moved p (symvUpdate A t x y z : Prog α Unit) (symvUpdate A' t x' y' z') := by
  obtain ⟨m_A, n_A, a_A, b_A, f_A, rfl, rfl, q_A⟩ := hA.elim
  obtain ⟨n_x, a_x, b_x, f_x, rfl, rfl, q_x⟩ := hx.elim
  obtain ⟨n_y, a_y, b_y, f_y, rfl, rfl, q_y⟩ := hy.elim
  obtain ⟨n_z, a_z, b_z, rfl, rfl, q_z⟩ := hz.elim
  cases t <;> (
    unfold symvUpdate
    unfold fillFrom symvAcc
    dsimp only
    relocate H)

theorem moved_hemv [Add α] [Sub α] [Mul α] [Div α] [Zero α] [ConjOps α] (H : OneToOne p) {A A' : MatV α} (t : Triangle) {x x' : VecV α} {y y' : Vec}
    (hA : MatV.Moved p A A') (hx : VecV.Moved p x x') (hy : Vec.Moved p y y') :
    Prog.Moved p (hemv A t x y : Prog α Unit) (hemv A' t x' y') := by
  obtain ⟨m_A, n_A, a_A, b_A, f_A, rfl, rfl, q_A⟩ := hA.elim
  obtain ⟨n_x, a_x, b_x, f_x, rfl, rfl, q_x⟩ := hx.elim
  obtain ⟨n_y, a_y, b_y, rfl, rfl, q_y⟩ := hy.elim
  cases t <;> (
    unfold hemv
    unfold fillZero hemvAcc
    dsimp only
    relocate H)

theorem moved_hemvUpdate [Add α] [Sub α] [Mul α] [Div α] [Zero α] [ConjOps α] (H : OneToOne p) {A A' : MatV α} (t : Triangle) {x x' : VecV α} {y y' : VecV α} {z z' : Vec}
    (hA : MatV.Moved p A A') (hx : VecV.Moved p x x') (hy : VecV.Moved p y y')
        (hz : Vec.Moved p z z') :
    Prog.Moved p (hemvUpdate A t x y z : Prog α Unit) (hemvUpdate A' t x' y' z') := by
  obtain ⟨m_A, n_A, a_A, b_A, f_A, rfl, rfl, q_A⟩ := hA.elim
  obtain ⟨n_x, a_x, b_x, f_x, rfl, rfl, q_x⟩ := hx.elim
  obtain ⟨n_y, a_y, b_y, f_y, rfl, rfl, q_y⟩ := hy.elim
  obtain ⟨n_z, a_z, b_z, rfl, rfl, q_z⟩ := hz.elim
  cases t <;> (
    unfold hemvUpdate
    unfold fillFrom hemvAcc
    dsimp only
    relocate H)

theorem moved_trmv [Add α] [Sub α] [Mul α] [Div α] [Zero α] [ConjOps α] (H : OneToOne p) {A A' : MatV α} (t : Triangle) (d : Diag) {x x' : VecV α} {y y' : Vec}
    (hA : MatV.Moved p A A') (hx : VecV.Moved p x x') (hy : Vec.Moved p y y') :
    Prog.Moved p (trmv A t d x y : Prog α Unit) (trmv A' t d x' y') := by
  obtain ⟨m_A, n_A, a_A, b_A, f_A, rfl, rfl, q_A⟩ := hA.elim
  obtain ⟨n_x, a_x, b_x, f_x, rfl, rfl, q_x⟩ := hx.elim
  obtain ⟨n_y, a_y, b_y, rfl, rfl, q_y⟩ := hy.elim
  cases t <;> (
    unfold trmv
    unfold fillZero trmvAcc
    dsimp only
    relocate H)

theorem moved_trmvUpdate [Add α] [Sub α] [Mul α] [Div α] [Zero α] [ConjOps α] (H : OneToOne p) {A A' : MatV α} (t : Triangle) (d : Diag) {x x' : VecV α} {y y' : VecV α} {z z' : Vec}
    (hA : MatV.Moved p A A') (hx : VecV.Moved p x x') (hy : VecV.Moved p y y')
        (hz : Vec.Moved p z z') :
    Prog.Moved p (trmvUpdate A t d x y z : Prog α Unit) (trmvUpdate A' t d x' y' z') := by
  obtain ⟨m_A, n_A, a_A, b_A, f_A, rfl, rfl, q_A⟩ := hA.elim
  obtain ⟨n_x, a_x, b_x, f_x, rfl, rfl, q_x⟩ := hx.elim
  obtain ⟨n_y, a_y, b_y, f_y, rfl, rfl, q_y⟩ := hy.elim
  obtain ⟨n_z, a_z, b_z, rfl, rfl, q_z⟩ := hz.elim
  cases t <;> (
    unfold trmvUpdate
    unfold fillFrom trmvAcc
    dsimp only
    relocate H)

theorem moved_trmvInPlace [Add α] [Sub α] [Mul α] [Div α] [Zero α] [ConjOps α] (H : OneToOne p) {A A' : MatV α} (t : Triangle) (d : Diag) {y y' : Vec}
    (hA : MatV.Moved p A A') (hy : Vec.Moved p y y') :
    Prog.Moved p (trmvInPlace A t d y : Prog α Unit) (trmvInPlace A' t d y') := by
  obtain ⟨m_A, n_A, a_A, b_A, f_A, rfl, rfl, q_A⟩ := hA.elim
  obtain ⟨n_y, a_y, b_y, rfl, rfl, q_y⟩ := hy.elim
  cases t <;> (
    unfold trmvInPlace
    dsimp only
    relocate H)

theorem moved_trsv [Add α] [Sub α] [Mul α] [Div α] [Zero α] [ConjOps α] (H : OneToOne p)
        (divide : α → α → α) {A A' : MatV α} (t : Triangle) (d : Diag) {b b' : VecV α} {x x' : Vec}
    (hA : MatV.Moved p A A') (hb : VecV.Moved p b b') (hx : Vec.Moved p x x') :
    Prog.Moved p (trsv divide A t d b x : Prog α Unit) (trsv divide A' t d b' x') := by
  obtain ⟨m_A, n_A, a_A, b_A, f_A, rfl, rfl, q_A⟩ := hA.elim
  obtain ⟨n_b, a_b, b_b, f_b, rfl, rfl, q_b⟩ := hb.elim
  obtain ⟨n_x, a_x, b_x, rfl, rfl, q_x⟩ := hx.elim
  cases t <;> (
    unfold trsv
    dsimp only
    first | unfold trsvLower | unfold trsvUpper
    dsimp only
    relocate H)

theorem moved_ger [Add α] [Sub α] [Mul α] [Div α] [Zero α] [ConjOps α] (H : OneToOne p) {x x' : VecV α} {y y' : VecV α} {A A' : Mat}
    (hx : VecV.Moved p x x') (hy : VecV.Moved p y y') (hA : Mat.Moved p A A') :
    Prog.Moved p (ger x y A : Prog α Unit) (ger x' y' A') := by
  obtain ⟨n_x, a_x, b_x, f_x, rfl, rfl, q_x⟩ := hx.elim
  obtain ⟨n_y, a_y, b_y, f_y, rfl, rfl, q_y⟩ := hy.elim
  obtain ⟨m_A, n_A, a_A, b_A, rfl, rfl, q_A⟩ := hA.elim
  unfold ger
  dsimp only
  relocate H

theorem moved_gerc [Add α] [Sub α] [Mul α] [Div α] [Zero α] [ConjOps α] (H : OneToOne p) {x x' : VecV α} {y y' : VecV α} {A A' : Mat}
    (hx : VecV.Moved p x x') (hy : VecV.Moved p y y') (hA : Mat.Moved p A A') :
    Prog.Moved p (gerc x y A : Prog α Unit) (gerc x' y' A') := by
  obtain ⟨n_x, a_x, b_x, f_x, rfl, rfl, q_x⟩ := hx.elim
  obtain ⟨n_y, a_y, b_y, f_y, rfl, rfl, q_y⟩ := hy.elim
  obtain ⟨m_A, n_A, a_A, b_A, rfl, rfl, q_A⟩ := hA.elim
  unfold gerc
  unfold VecV.conjugated
  unfold ger
  dsimp only
  relocate H

theorem moved_syrAlpha [Add α] [Sub α] [Mul α] [Div α] [Zero α] [ConjOps α] (H : OneToOne p)
        (alpha : α) {x x' : VecV α} {A A' : Mat} (t : Triangle)
    (hx : VecV.Moved p x x') (hA : Mat.Moved p A A') :
    Prog.Moved p (syrAlpha alpha x A t : Prog α Unit) (syrAlpha alpha x' A' t) := by
  obtain ⟨n_x, a_x, b_x, f_x, rfl, rfl, q_x⟩ := hx.elim
  obtain ⟨m_A, n_A, a_A, b_A, rfl, rfl, q_A⟩ := hA.elim
  unfold syrAlpha
  dsimp only
  relocate H

theorem moved_syr [Add α] [Sub α] [Mul α] [Div α] [Zero α] [ConjOps α] (H : OneToOne p) {x x' : VecV α} {A A' : Mat} (t : Triangle)
    (hx : VecV.Moved p x x') (hA : Mat.Moved p A A') :
    Prog.Moved p (syr x A t : Prog α Unit) (syr x' A' t) := by
  obtain ⟨n_x, a_x, b_x, f_x, rfl, rfl, q_x⟩ := hx.elim
  obtain ⟨m_A, n_A, a_A, b_A, rfl, rfl, q_A⟩ := hA.elim
  unfold syr
  dsimp only
  relocate H

theorem moved_syr2 [Add α] [Sub α] [Mul α] [Div α] [Zero α] [ConjOps α] (H : OneToOne p) {x x' : VecV α} {y y' : VecV α} {A A' : Mat} (t : Triangle)
    (hx : VecV.Moved p x x') (hy : VecV.Moved p y y') (hA : Mat.Moved p A A') :
    Prog.Moved p (syr2 x y A t : Prog α Unit) (syr2 x' y' A' t) := by
  obtain ⟨n_x, a_x, b_x, f_x, rfl, rfl, q_x⟩ := hx.elim
  obtain ⟨n_y, a_y, b_y, f_y, rfl, rfl, q_y⟩ := hy.elim
  obtain ⟨m_A, n_A, a_A, b_A, rfl, rfl, q_A⟩ := hA.elim
  unfold syr2
  dsimp only
  relocate H

theorem moved_herAlpha [Add α] [Sub α] [Mul α] [Div α] [Zero α] [ConjOps α] (H : OneToOne p)
        (alpha : α) {x x' : VecV α} {A A' : Mat} (t : Triangle)
    (hx : VecV.Moved p x x') (hA : Mat.Moved p A A') :
    Prog.Moved p (herAlpha alpha x A t : Prog α Unit) (herAlpha alpha x' A' t) := by
  obtain ⟨n_x, a_x, b_x, f_x, rfl, rfl, q_x⟩ := hx.elim
  obtain ⟨m_A, n_A, a_A, b_A, rfl, rfl, q_A⟩ := hA.elim
  unfold herAlpha
  unfold makeDiagReal
  dsimp only
  relocate H

theorem moved_her [Add α] [Sub α] [Mul α] [Div α] [Zero α] [ConjOps α] (H : OneToOne p) {x x' : VecV α} {A A' : Mat} (t : Triangle)
    (hx : VecV.Moved p x x') (hA : Mat.Moved p A A') :
    Prog.Moved p (her x A t : Prog α Unit) (her x' A' t) := by
  obtain ⟨n_x, a_x, b_x, f_x, rfl, rfl, q_x⟩ := hx.elim
  obtain ⟨m_A, n_A, a_A, b_A, rfl, rfl, q_A⟩ := hA.elim
  unfold her
  unfold makeDiagReal
  dsimp only
  relocate H

theorem moved_her2 [Add α] [Sub α] [Mul α] [Div α] [Zero α] [ConjOps α] (H : OneToOne p) {x x' : VecV α} {y y' : VecV α} {A A' : Mat} (t : Triangle)
    (hx : VecV.Moved p x x') (hy : VecV.Moved p y y') (hA : Mat.Moved p A A') :
    Prog.Moved p (her2 x y A t : Prog α Unit) (her2 x' y' A' t) := by
  obtain ⟨n_x, a_x, b_x, f_x, rfl, rfl, q_x⟩ := hx.elim
  obtain ⟨n_y, a_y, b_y, f_y, rfl, rfl, q_y⟩ := hy.elim
  obtain ⟨m_A, n_A, a_A, b_A, rfl, rfl, q_A⟩ := hA.elim
  unfold her2
  unfold makeDiagReal
  dsimp only
  relocate H

theorem moved_syrkAlpha [Add α] [Sub α] [Mul α] [Div α] [Zero α] [ConjOps α] (H : OneToOne p)
        (alpha : α) {A A' : MatV α} {C C' : Mat} (t : Triangle)
    (hA : MatV.Moved p A A') (hC : Mat.Moved p C C') :
    Prog.Moved p (syrkAlpha alpha A C t : Prog α Unit) (syrkAlpha alpha A' C' t) := by
  obtain ⟨m_A, n_A, a_A, b_A, f_A, rfl, rfl, q_A⟩ := hA.elim
  obtain ⟨m_C, n_C, a_C, b_C, rfl, rfl, q_C⟩ := hC.elim
  unfold syrkAlpha
  dsimp only
  relocate H

theorem moved_syrk [Add α] [Sub α] [Mul α] [Div α] [Zero α] [ConjOps α] (H : OneToOne p) {A A' : MatV α} {C C' : Mat} (t : Triangle)
    (hA : MatV.Moved p A A') (hC : Mat.Moved p C C') :
    Prog.Moved p (syrk A C t : Prog α Unit) (syrk A' C' t) := by
  obtain ⟨m_A, n_A, a_A, b_A, f_A, rfl, rfl, q_A⟩ := hA.elim
  obtain ⟨m_C, n_C, a_C, b_C, rfl, rfl, q_C⟩ := hC.elim
  unfold syrk
  dsimp only
  relocate H

theorem moved_syr2k [Add α] [Sub α] [Mul α] [Div α] [Zero α] [ConjOps α] (H : OneToOne p) {A A' : MatV α} {B B' : MatV α} {C C' : Mat} (t : Triangle)
    (hA : MatV.Moved p A A') (hB : MatV.Moved p B B') (hC : Mat.Moved p C C') :
    Prog.Moved p (syr2k A B C t : Prog α Unit) (syr2k A' B' C' t) := by
  obtain ⟨m_A, n_A, a_A, b_A, f_A, rfl, rfl, q_A⟩ := hA.elim
  obtain ⟨m_B, n_B, a_B, b_B, f_B, rfl, rfl, q_B⟩ := hB.elim
  obtain ⟨m_C, n_C, a_C, b_C, rfl, rfl, q_C⟩ := hC.elim
  unfold syr2k
  dsimp only
  relocate H

theorem moved_herkAlpha [Add α] [Sub α] [Mul α] [Div α] [Zero α] [ConjOps α] (H : OneToOne p)
        (alpha : α) {A A' : MatV α} {C C' : Mat} (t : Triangle)
    (hA : MatV.Moved p A A') (hC : Mat.Moved p C C') :
    Prog.Moved p (herkAlpha alpha A C t : Prog α Unit) (herkAlpha alpha A' C' t) := by
  obtain ⟨m_A, n_A, a_A, b_A, f_A, rfl, rfl, q_A⟩ := hA.elim
  obtain ⟨m_C, n_C, a_C, b_C, rfl, rfl, q_C⟩ := hC.elim
  unfold herkAlpha
  unfold makeDiagReal
  dsimp only
  relocate H

theorem moved_herk [Add α] [Sub α] [Mul α] [Div α] [Zero α] [ConjOps α] (H : OneToOne p) {A A' : MatV α} {C C' : Mat} (t : Triangle)
    (hA : MatV.Moved p A A') (hC : Mat.Moved p C C') :
    Prog.Moved p (herk A C t : Prog α Unit) (herk A' C' t) := by
  obtain ⟨m_A, n_A, a_A, b_A, f_A, rfl, rfl, q_A⟩ := hA.elim
  obtain ⟨m_C, n_C, a_C, b_C, rfl, rfl, q_C⟩ := hC.elim
  unfold herk
  unfold makeDiagReal
  dsimp only
  relocate H

theorem moved_her2k [Add α] [Sub α] [Mul α] [Div α] [Zero α] [ConjOps α] (H : OneToOne p) {A A' : MatV α} {B B' : MatV α} {C C' : Mat} (t : Triangle)
    (hA : MatV.Moved p A A') (hB : MatV.Moved p B B') (hC : Mat.Moved p C C') :
    Prog.Moved p (her2k A B C t : Prog α Unit) (her2k A' B' C' t) := by
  obtain ⟨m_A, n_A, a_A, b_A, f_A, rfl, rfl, q_A⟩ := hA.elim
  obtain ⟨m_B, n_B, a_B, b_B, f_B, rfl, rfl, q_B⟩ := hB.elim
  obtain ⟨m_C, n_C, a_C, b_C, rfl, rfl, q_C⟩ := hC.elim
  unfold her2k
  unfold makeDiagReal
  dsimp only
  relocate H

theorem moved_gemm [Add α] [Sub α] [Mul α] [Div α] [Zero α] [ConjOps α] (H : OneToOne p) {A A' : MatV α} {B B' : MatV α} {C C' : Mat}
    (hA : MatV.Moved p A A') (hB : MatV.Moved p B B') (hC : Mat.Moved p C C') :
    Prog.Moved p (gemm A B C : Prog α Unit) (gemm A' B' C') := by
  obtain ⟨m_A, n_A, a_A, b_A, f_A, rfl, rfl, q_A⟩ := hA.elim
  obtain ⟨m_B, n_B, a_B, b_B, f_B, rfl, rfl, q_B⟩ := hB.elim
  obtain ⟨m_C, n_C, a_C, b_C, rfl, rfl, q_C⟩ := hC.elim
  unfold gemm
  dsimp only
  relocate H

theorem moved_gemmUpdate [Add α] [Sub α] [Mul α] [Div α] [Zero α] [ConjOps α] (H : OneToOne p) {A A' : MatV α} {B B' : MatV α} {E E' : MatV α} {C C' : Mat}
    (hA : MatV.Moved p A A') (hB : MatV.Moved p B B') (hE : MatV.Moved p E E')
        (hC : Mat.Moved p C C') :
    Prog.Moved p (gemmUpdate A B E C : Prog α Unit) (gemmUpdate A' B' E' C') := by
  obtain ⟨m_A, n_A, a_A, b_A, f_A, rfl, rfl, q_A⟩ := hA.elim
  obtain ⟨m_B, n_B, a_B, b_B, f_B, rfl, rfl, q_B⟩ := hB.elim
  obtain ⟨m_E, n_E, a_E, b_E, f_E, rfl, rfl, q_E⟩ := hE.elim
  obtain ⟨m_C, n_C, a_C, b_C, rfl, rfl, q_C⟩ := hC.elim
  unfold gemmUpdate
  dsimp only
  relocate H

theorem moved_trmmLeft [Add α] [Sub α] [Mul α] [Div α] [Zero α] [ConjOps α] (H : OneToOne p) {A A' : MatV α} (t : Triangle) (d : Diag) {B B' : MatV α} {C C' : Mat}
    (hA : MatV.Moved p A A') (hB : MatV.Moved p B B') (hC : Mat.Moved p C C') :
    Prog.Moved p (trmmLeft A t d B C : Prog α Unit) (trmmLeft A' t d B' C') := by
  obtain ⟨m_A, n_A, a_A, b_A, f_A, rfl, rfl, q_A⟩ := hA.elim
  obtain ⟨m_B, n_B, a_B, b_B, f_B, rfl, rfl, q_B⟩ := hB.elim
  obtain ⟨m_C, n_C, a_C, b_C, rfl, rfl, q_C⟩ := hC.elim
  cases t <;> (
    unfold trmmLeft
    dsimp only
    relocate H)

theorem moved_trmmRight [Add α] [Sub α] [Mul α] [Div α] [Zero α] [ConjOps α] (H : OneToOne p) {B B' : MatV α} {A A' : MatV α} (t : Triangle) (d : Diag) {C C' : Mat}
    (hB : MatV.Moved p B B') (hA : MatV.Moved p A A') (hC : Mat.Moved p C C') :
    Prog.Moved p (trmmRight B A t d C : Prog α Unit) (trmmRight B' A' t d C') := by
  obtain ⟨m_B, n_B, a_B, b_B, f_B, rfl, rfl, q_B⟩ := hB.elim
  obtain ⟨m_A, n_A, a_A, b_A, f_A, rfl, rfl, q_A⟩ := hA.elim
  obtain ⟨m_C, n_C, a_C, b_C, rfl, rfl, q_C⟩ := hC.elim
  cases t <;> (
    unfold trmmRight
    dsimp only
    relocate H)

theorem moved_trmmLeftInPlace [Add α] [Sub α] [Mul α] [Div α] [Zero α] [ConjOps α] (H : OneToOne p) {A A' : MatV α} (t : Triangle) (d : Diag) {C C' : Mat}
    (hA : MatV.Moved p A A') (hC : Mat.Moved p C C') :
    Prog.Moved p (trmmLeftInPlace A t d C : Prog α Unit) (trmmLeftInPlace A' t d C') := by
  obtain ⟨m_A, n_A, a_A, b_A, f_A, rfl, rfl, q_A⟩ := hA.elim
  obtain ⟨m_C, n_C, a_C, b_C, rfl, rfl, q_C⟩ := hC.elim
  cases t <;> (
    unfold trmmLeftInPlace
    dsimp only
    relocate H)

theorem moved_trmmRightInPlace [Add α] [Sub α] [Mul α] [Div α] [Zero α] [ConjOps α] (H : OneToOne p) {A A' : MatV α} (t : Triangle) (d : Diag) {C C' : Mat}
    (hA : MatV.Moved p A A') (hC : Mat.Moved p C C') :
    Prog.Moved p (trmmRightInPlace A t d C : Prog α Unit) (trmmRightInPlace A' t d C') := by
  obtain ⟨m_A, n_A, a_A, b_A, f_A, rfl, rfl, q_A⟩ := hA.elim
  obtain ⟨m_C, n_C, a_C, b_C, rfl, rfl, q_C⟩ := hC.elim
  cases t <;> (
    unfold trmmRightInPlace
    dsimp only
    relocate H)

theorem moved_symmLeft [Add α] [Sub α] [Mul α] [Div α] [Zero α] [ConjOps α] (H : OneToOne p) {A A' : MatV α} (t : Triangle) {B B' : MatV α} {C C' : Mat}
    (hA : MatV.Moved p A A') (hB : MatV.Moved p B B') (hC : Mat.Moved p C C') :
    Prog.Moved p (symmLeft A t B C : Prog α Unit) (symmLeft A' t B' C') := by
  obtain ⟨m_A, n_A, a_A, b_A, f_A, rfl, rfl, q_A⟩ := hA.elim
  obtain ⟨m_B, n_B, a_B, b_B, f_B, rfl, rfl, q_B⟩ := hB.elim
  obtain ⟨m_C, n_C, a_C, b_C, rfl, rfl, q_C⟩ := hC.elim
  cases t <;> (
    unfold symmLeft
    dsimp only
    relocate H)

theorem moved_symmRight [Add α] [Sub α] [Mul α] [Div α] [Zero α] [ConjOps α] (H : OneToOne p) {B B' : MatV α} {A A' : MatV α} (t : Triangle) {C C' : Mat}
    (hB : MatV.Moved p B B') (hA : MatV.Moved p A A') (hC : Mat.Moved p C C') :
    Prog.Moved p (symmRight B A t C : Prog α Unit) (symmRight B' A' t C') := by
  obtain ⟨m_B, n_B, a_B, b_B, f_B, rfl, rfl, q_B⟩ := hB.elim
  obtain ⟨m_A, n_A, a_A, b_A, f_A, rfl, rfl, q_A⟩ := hA.elim
  obtain ⟨m_C, n_C, a_C, b_C, rfl, rfl, q_C⟩ := hC.elim
  cases t <;> (
    unfold symmRight
    dsimp only
    relocate H)

theorem moved_hemmLeft [Add α] [Sub α] [Mul α] [Div α] [Zero α] [ConjOps α] (H : OneToOne p) {A A' : MatV α} (t : Triangle) {B B' : MatV α} {C C' : Mat}
    (hA : MatV.Moved p A A') (hB : MatV.Moved p B B') (hC : Mat.Moved p C C') :
    Prog.Moved p (hemmLeft A t B C : Prog α Unit) (hemmLeft A' t B' C') := by
  obtain ⟨m_A, n_A, a_A, b_A, f_A, rfl, rfl, q_A⟩ := hA.elim
  obtain ⟨m_B, n_B, a_B, b_B, f_B, rfl, rfl, q_B⟩ := hB.elim
  obtain ⟨m_C, n_C, a_C, b_C, rfl, rfl, q_C⟩ := hC.elim
  cases t <;> (
    unfold hemmLeft
    dsimp only
    relocate H)

theorem moved_hemmRight [Add α] [Sub α] [Mul α] [Div α] [Zero α] [ConjOps α] (H : OneToOne p) {B B' : MatV α} {A A' : MatV α} (t : Triangle) {C C' : Mat}
    (hB : MatV.Moved p B B') (hA : MatV.Moved p A A') (hC : Mat.Moved p C C') :
    Prog.Moved p (hemmRight B A t C : Prog α Unit) (hemmRight B' A' t C') := by
  obtain ⟨m_B, n_B, a_B, b_B, f_B, rfl, rfl, q_B⟩ := hB.elim
  obtain ⟨m_A, n_A, a_A, b_A, f_A, rfl, rfl, q_A⟩ := hA.elim
  obtain ⟨m_C, n_C, a_C, b_C, rfl, rfl, q_C⟩ := hC.elim
  cases t <;> (
    unfold hemmRight
    dsimp only
    relocate H)

theorem moved_trsm [Add α] [Sub α] [Mul α] [Div α] [Zero α] [ConjOps α] (H : OneToOne p) {A A' : MatV α} (t : Triangle) (d : Diag) (side : Side) {B B' : MatV α} {X X' : Mat}
    (hA : MatV.Moved p A A') (hB : MatV.Moved p B B') (hX : Mat.Moved p X X') :
    Prog.Moved p (trsm A t d side B X : Prog α Unit) (trsm A' t d side B' X') := by
  obtain ⟨m_A, n_A, a_A, b_A, f_A, rfl, rfl, q_A⟩ := hA.elim
  obtain ⟨m_B, n_B, a_B, b_B, f_B, rfl, rfl, q_B⟩ := hB.elim
  obtain ⟨m_X, n_X, a_X, b_X, rfl, rfl, q_X⟩ := hX.elim
  cases t <;> cases side <;> (
    unfold trsm
    dsimp only
    first | unfold trsmLeft | unfold trsmRight
    dsimp only
    first | unfold trsmLowerLeft | unfold trsmUpperLeft | unfold trsmLowerRight | unfold trsmUpperRight
    dsimp only
    relocate H)

theorem moved_prog [Add α] [Sub α] [Mul α] [Div α] [Zero α] [ConjOps α]
    [Zero R] [One R] [Add R] [Mul R] [Div R] [FloatOps R] [MagOps α R]
    (H : OneToOne p) {c c' : Call α R} (hc : Call.Moved p c c') : Prog.Moved p c.prog c'.prog := by
  cases hc with
  | scale1 alpha _ _ hx =>
    exact moved_scale1 H alpha hx
  | scale2 alpha _ _ hA =>
    exact moved_scale2 H alpha hA
  | copy1 _ _ _ _ hx hy =>
    exact moved_copy1 H  hx hy
  | copy2 _ _ _ _ hx hy =>
    exact moved_copy2 H  hx hy
  | swap1 _ _ _ _ hx hy =>
    exact moved_swap1 H  hx hy
  | swap2 _ _ _ _ hx hy =>
    exact moved_swap2 H  hx hy
  | add1 _ _ _ _ _ _ hx hy hz =>
    exact moved_add1 H  hx hy hz
  | add2 _ _ _ _ _ _ hx hy hz =>
    exact moved_add2 H  hx hy hz
  | givens _ _ _ _ c s hx hy =>
    exact moved_givens H c s hx hy
  | givensC _ _ _ _ c s hx hy =>
    exact moved_givensC H c s hx hy
  | dot _ _ _ _ init f _ _ hv1 hv2 ho =>
    exact moved_into H (moved_dot H init hv1 hv2) f ho
  | dotc _ _ _ _ init f _ _ hv1 hv2 ho =>
    exact moved_into H (moved_dotc H init hv1 hv2) f ho
  | sumOfSquares _ _ init f _ _ hx ho =>
    exact moved_into H (moved_sumOfSquares H init hx) f ho
  | twoNorm _ _ init f _ _ hx ho =>
    exact moved_into H (moved_twoNorm H init hx) f ho
  | absSum _ _ init f _ _ hx ho =>
    exact moved_into H (moved_absSum H init hx) f ho
  | idxAbsMax sizeMax _ _ f _ _ hx ho =>
    exact moved_into H (moved_idxAbsMax H sizeMax hx) f ho
  | frobNorm _ _ init f _ _ hA ho =>
    exact moved_into H (moved_frobNorm H init hA) f ho
  | oneNorm _ _ init f _ _ hA ho =>
    exact moved_into H (moved_oneNorm H init hA) f ho
  | infNorm _ _ init f _ _ hA ho =>
    exact moved_into H (moved_infNorm H init hA) f ho
  | gemv _ _ _ _ _ _ hA hx hy =>
    exact moved_gemv H  hA hx hy
  | gemvUpdate _ _ _ _ _ _ _ _ hA hx hy hz =>
    exact moved_gemvUpdate H  hA hx hy hz
  | symv _ _ t _ _ _ _ hA hx hy =>
    exact moved_symv H t hA hx hy
  | symvUpdate _ _ t _ _ _ _ _ _ hA hx hy hz =>
    exact moved_symvUpdate H t hA hx hy hz
  | hemv _ _ t _ _ _ _ hA hx hy =>
    exact moved_hemv H t hA hx hy
  | hemvUpdate _ _ t _ _ _ _ _ _ hA hx hy hz =>
    exact moved_hemvUpdate H t hA hx hy hz
  | trmv _ _ t d _ _ _ _ hA hx hy =>
    exact moved_trmv H t d hA hx hy
  | trmvUpdate _ _ t d _ _ _ _ _ _ hA hx hy hz =>
    exact moved_trmvUpdate H t d hA hx hy hz
  | trmvInPlace _ _ t d _ _ hA hy =>
    exact moved_trmvInPlace H t d hA hy
  | trsv divide _ _ t d _ _ _ _ hA hb hx =>
    exact moved_trsv H divide t d hA hb hx
  | ger _ _ _ _ _ _ hx hy hA =>
    exact moved_ger H  hx hy hA
  | gerc _ _ _ _ _ _ hx hy hA =>
    exact moved_gerc H  hx hy hA
  | syrAlpha alpha _ _ _ _ t hx hA =>
    exact moved_syrAlpha H alpha t hx hA
  | syr _ _ _ _ t hx hA =>
    exact moved_syr H t hx hA
  | syr2 _ _ _ _ _ _ t hx hy hA =>
    exact moved_syr2 H t hx hy hA
  | herAlpha alpha _ _ _ _ t hx hA =>
    exact moved_herAlpha H alpha t hx hA
  | her _ _ _ _ t hx hA =>
    exact moved_her H t hx hA
  | her2 _ _ _ _ _ _ t hx hy hA =>
    exact moved_her2 H t hx hy hA
  | syrkAlpha alpha _ _ _ _ t hA hC =>
    exact moved_syrkAlpha H alpha t hA hC
  | syrk _ _ _ _ t hA hC =>
    exact moved_syrk H t hA hC
  | syr2k _ _ _ _ _ _ t hA hB hC =>
    exact moved_syr2k H t hA hB hC
  | herkAlpha alpha _ _ _ _ t hA hC =>
    exact moved_herkAlpha H alpha t hA hC
  | herk _ _ _ _ t hA hC =>
    exact moved_herk H t hA hC
  | her2k _ _ _ _ _ _ t hA hB hC =>
    exact moved_her2k H t hA hB hC
  | gemm _ _ _ _ _ _ hA hB hC =>
    exact moved_gemm H  hA hB hC
  | gemmUpdate _ _ _ _ _ _ _ _ hA hB hE hC =>
    exact moved_gemmUpdate H  hA hB hE hC
  | trmmLeft _ _ t d _ _ _ _ hA hB hC =>
    exact moved_trmmLeft H t d hA hB hC
  | trmmRight _ _ _ _ t d _ _ hB hA hC =>
    exact moved_trmmRight H t d hB hA hC
  | trmmLeftInPlace _ _ t d _ _ hA hC =>
    exact moved_trmmLeftInPlace H t d hA hC
  | trmmRightInPlace _ _ t d _ _ hA hC =>
    exact moved_trmmRightInPlace H t d hA hC
  | symmLeft _ _ t _ _ _ _ hA hB hC =>
    exact moved_symmLeft H t hA hB hC
  | symmRight _ _ _ _ t _ _ hB hA hC =>
    exact moved_symmRight H t hB hA hC
  | hemmLeft _ _ t _ _ _ _ hA hB hC =>
    exact moved_hemmLeft H t hA hB hC
  | hemmRight _ _ _ _ t _ _ hB hA hC =>
    exact moved_hemmRight H t hB hA hC
  | trsm _ _ t d side _ _ _ _ hA hB hX =>
    exact moved_trsm H t d side hA hB hX

end StdBLAS

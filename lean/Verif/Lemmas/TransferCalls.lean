import Verif.Lemmas.TransferNorms

/-!
# Lemmas for C76: every algorithm, over two element types
-/

namespace StdBLAS
variable {α β R S : Type} {rel : α → β → Prop} {srel : R → S → Prop}
  [Add α] [Sub α] [Mul α] [Zero α] [ConjOps α] [Add β] [Sub β] [Mul β] [Zero β] [ConjOps β]

theorem related_scale1 (H : Respects rel) {alpha : α} {alpha' : β} (x : Vec)
    (halpha : rel alpha alpha') :
    Prog.Related rel Void (scale1 alpha x) (scale1 alpha' x) := by
  unfold scale1
  transfer H

theorem related_scale2 (H : Respects rel) {alpha : α} {alpha' : β} (A : Mat)
    (halpha : rel alpha alpha') :
    Prog.Related rel Void (scale2 alpha A) (scale2 alpha' A) := by
  unfold scale2
  transfer H

theorem related_copy1 (_H : Respects rel) {x : VecV α} {x' : VecV β} (y : Vec)
    (hx : VecV.Related rel x x') :
    Prog.Related rel Void (copy1 x y) (copy1 x' y) := by
  obtain ⟨x, fx, gx, rfl, rfl, qx⟩ := hx.elim
  unfold copy1
  transfer _H

theorem related_copy2 (_H : Respects rel) {x : MatV α} {x' : MatV β} (y : Mat)
    (hx : MatV.Related rel x x') :
    Prog.Related rel Void (copy2 x y) (copy2 x' y) := by
  obtain ⟨x, fx, gx, rfl, rfl, qx⟩ := hx.elim
  unfold copy2
  transfer _H

theorem related_swap1 (_H : Respects rel) (x : Vec) (y : Vec)
     :
    Prog.Related rel Void (swap1 x y) (swap1 x y) := by
  unfold swap1
  transfer _H

theorem related_swap2 (_H : Respects rel) (x : Mat) (y : Mat)
     :
    Prog.Related rel Void (swap2 x y) (swap2 x y) := by
  unfold swap2
  transfer _H

theorem related_add1 (H : Respects rel) {x : VecV α} {x' : VecV β} {y : VecV α} {y' : VecV β} (z : Vec)
    (hx : VecV.Related rel x x') (hy : VecV.Related rel y y') :
    Prog.Related rel Void (add1 x y z) (add1 x' y' z) := by
  obtain ⟨x, fx, gx, rfl, rfl, qx⟩ := hx.elim
  obtain ⟨y, fy, gy, rfl, rfl, qy⟩ := hy.elim
  unfold add1
  transfer H

theorem related_add2 (H : Respects rel) {x : MatV α} {x' : MatV β} {y : MatV α} {y' : MatV β} (z : Mat)
    (hx : MatV.Related rel x x') (hy : MatV.Related rel y y') :
    Prog.Related rel Void (add2 x y z) (add2 x' y' z) := by
  obtain ⟨x, fx, gx, rfl, rfl, qx⟩ := hx.elim
  obtain ⟨y, fy, gy, rfl, rfl, qy⟩ := hy.elim
  unfold add2
  transfer H

theorem related_givens (H : Respects rel) (x : Vec) (y : Vec) {c : α} {c' : β} {s : α} {s' : β}
    (hc : rel c c') (hs : rel s s') :
    Prog.Related rel Void (applyGivens x y c s) (applyGivens x y c' s') := by
  unfold applyGivens
  transfer H

theorem related_givensC (H : Respects rel) (x : Vec) (y : Vec) {c : α} {c' : β} {s : α} {s' : β}
    (hc : rel c c') (hs : rel s s') :
    Prog.Related rel Void (applyGivensC x y c s) (applyGivensC x y c' s') := by
  unfold applyGivensC
  transfer H

theorem related_dot (H : Respects rel) {v1 : VecV α} {v1' : VecV β} {v2 : VecV α} {v2' : VecV β} {init : α} {init' : β}
    (hv1 : VecV.Related rel v1 v1') (hv2 : VecV.Related rel v2 v2') (hinit : rel init init') :
    Prog.Related rel rel (dot v1 v2 init) (dot v1' v2' init') := by
  obtain ⟨v1, fv1, gv1, rfl, rfl, qv1⟩ := hv1.elim
  obtain ⟨v2, fv2, gv2, rfl, rfl, qv2⟩ := hv2.elim
  unfold dot
  transfer H

theorem related_dotc (H : Respects rel) {v1 : VecV α} {v1' : VecV β} {v2 : VecV α} {v2' : VecV β} {init : α} {init' : β}
    (hv1 : VecV.Related rel v1 v1') (hv2 : VecV.Related rel v2 v2') (hinit : rel init init') :
    Prog.Related rel rel (dotc v1 v2 init) (dotc v1' v2' init') := by
  obtain ⟨v1, fv1, gv1, rfl, rfl, qv1⟩ := hv1.elim
  obtain ⟨v2, fv2, gv2, rfl, rfl, qv2⟩ := hv2.elim
  unfold dotc
  have hy' : ∀ {v w}, rel v w → rel (ConjOps.conj (fv1 v)) (ConjOps.conj (gv1 w)) := fun h => H.conj (qv1 h)
  unfold VecV.conjugated
  unfold dot
  transfer H

theorem related_gemv (H : Respects rel) {A : MatV α} {A' : MatV β} {x : VecV α} {x' : VecV β} (y : Vec)
    (hA : MatV.Related rel A A') (hx : VecV.Related rel x x') :
    Prog.Related rel Void (gemv A x y) (gemv A' x' y) := by
  obtain ⟨A, fA, gA, rfl, rfl, qA⟩ := hA.elim
  obtain ⟨x, fx, gx, rfl, rfl, qx⟩ := hx.elim
  unfold gemv
  transfer H

theorem related_gemvUpdate (H : Respects rel) {A : MatV α} {A' : MatV β} {x : VecV α} {x' : VecV β} {y : VecV α} {y' : VecV β} (z : Vec)
    (hA : MatV.Related rel A A') (hx : VecV.Related rel x x') (hy : VecV.Related rel y y') :
    Prog.Related rel Void (gemvUpdate A x y z) (gemvUpdate A' x' y' z) := by
  obtain ⟨A, fA, gA, rfl, rfl, qA⟩ := hA.elim
  obtain ⟨x, fx, gx, rfl, rfl, qx⟩ := hx.elim
  obtain ⟨y, fy, gy, rfl, rfl, qy⟩ := hy.elim
  unfold gemvUpdate
  transfer H

theorem related_symv (H : Respects rel) {A : MatV α} {A' : MatV β} (t : Triangle) {x : VecV α} {x' : VecV β} (y : Vec)
    (hA : MatV.Related rel A A') (hx : VecV.Related rel x x') :
    Prog.Related rel Void (symv A t x y) (symv A' t x' y) := by
  obtain ⟨A, fA, gA, rfl, rfl, qA⟩ := hA.elim
  obtain ⟨x, fx, gx, rfl, rfl, qx⟩ := hx.elim
  cases t <;> (
    unfold symv
    unfold fillZero symvAcc
    dsimp only
    transfer H)

theorem related_symvUpdate (H : Respects rel) {A : MatV α} {A' : MatV β} (t : Triangle) {x : VecV α} {x' : VecV β} {y : VecV α} {y' : VecV β} (z : Vec)
    (hA : MatV.Related rel A A') (hx : VecV.Related rel x x') (hy : VecV.Related rel y y') :
    Prog.Related rel Void (symvUpdate A t x y z) (symvUpdate A' t x' y' z) := by
  obtain ⟨A, fA, gA, rfl, rfl, qA⟩ := hA.elim
  obtain ⟨x, fx, gx, rfl, rfl, qx⟩ := hx.elim
  obtain ⟨y, fy, gy, rfl, rfl, qy⟩ := hy.elim
  cases t <;> (
    unfold symvUpdate
    unfold fillFrom symvAcc
    dsimp only
    transfer H)

theorem related_hemv (H : Respects rel) {A : MatV α} {A' : MatV β} (t : Triangle) {x : VecV α} {x' : VecV β} (y : Vec)
    (hA : MatV.Related rel A A') (hx : VecV.Related rel x x') :
    Prog.Related rel Void (hemv A t x y) (hemv A' t x' y) := by
  obtain ⟨A, fA, gA, rfl, rfl, qA⟩ := hA.elim
  obtain ⟨x, fx, gx, rfl, rfl, qx⟩ := hx.elim
  cases t <;> (
    unfold hemv
    unfold fillZero hemvAcc
    dsimp only
    transfer H)

theorem related_hemvUpdate (H : Respects rel) {A : MatV α} {A' : MatV β} (t : Triangle) {x : VecV α} {x' : VecV β} {y : VecV α} {y' : VecV β} (z : Vec)
    (hA : MatV.Related rel A A') (hx : VecV.Related rel x x') (hy : VecV.Related rel y y') :
    Prog.Related rel Void (hemvUpdate A t x y z) (hemvUpdate A' t x' y' z) := by
  obtain ⟨A, fA, gA, rfl, rfl, qA⟩ := hA.elim
  obtain ⟨x, fx, gx, rfl, rfl, qx⟩ := hx.elim
  obtain ⟨y, fy, gy, rfl, rfl, qy⟩ := hy.elim
  cases t <;> (
    unfold hemvUpdate
    unfold fillFrom hemvAcc
    dsimp only
    transfer H)

theorem related_trmv (H : Respects rel) {A : MatV α} {A' : MatV β} (t : Triangle) (d : Diag) {x : VecV α} {x' : VecV β} (y : Vec)
    (hA : MatV.Related rel A A') (hx : VecV.Related rel x x') :
    Prog.Related rel Void (trmv A t d x y) (trmv A' t d x' y) := by
  obtain ⟨A, fA, gA, rfl, rfl, qA⟩ := hA.elim
  obtain ⟨x, fx, gx, rfl, rfl, qx⟩ := hx.elim
  cases t <;> (
    unfold trmv
    unfold fillZero trmvAcc
    dsimp only
    transfer H)

theorem related_trmvUpdate (H : Respects rel) {A : MatV α} {A' : MatV β} (t : Triangle) (d : Diag) {x : VecV α} {x' : VecV β} {y : VecV α} {y' : VecV β} (z : Vec)
    (hA : MatV.Related rel A A') (hx : VecV.Related rel x x') (hy : VecV.Related rel y y') :
    Prog.Related rel Void (trmvUpdate A t d x y z) (trmvUpdate A' t d x' y' z) := by
  obtain ⟨A, fA, gA, rfl, rfl, qA⟩ := hA.elim
  obtain ⟨x, fx, gx, rfl, rfl, qx⟩ := hx.elim
  obtain ⟨y, fy, gy, rfl, rfl, qy⟩ := hy.elim
  cases t <;> (
    unfold trmvUpdate
    unfold fillFrom trmvAcc
    dsimp only
    transfer H)

theorem related_trmvInPlace (H : Respects rel) {A : MatV α} {A' : MatV β} (t : Triangle) (d : Diag) (y : Vec)
    (hA : MatV.Related rel A A') :
    Prog.Related rel Void (trmvInPlace A t d y) (trmvInPlace A' t d y) := by
  obtain ⟨A, fA, gA, rfl, rfl, qA⟩ := hA.elim
  cases t <;> (
    unfold trmvInPlace
    dsimp only
    transfer H)

theorem related_trsv (H : Respects rel) {divide : α → α → α} {divide' : β → β → β} {A : MatV α} {A' : MatV β} (t : Triangle) (d : Diag) {b : VecV α} {b' : VecV β} (x : Vec)
    (hdiv : d = .explicit → ∀ {a b v w}, rel a b → rel v w → rel (divide a v) (divide' b w)) (hA : MatV.Related rel A A') (hb : VecV.Related rel b b') :
    Prog.Related rel Void (trsv divide A t d b x) (trsv divide' A' t d b' x) := by
  obtain ⟨A, fA, gA, rfl, rfl, qA⟩ := hA.elim
  obtain ⟨b, fb, gb, rfl, rfl, qb⟩ := hb.elim
  cases t <;> (
    unfold trsv
    dsimp only
    first | unfold trsvLower | unfold trsvUpper
    dsimp only
    solve_rows hdiv)

theorem related_ger (H : Respects rel) {x : VecV α} {x' : VecV β} {y : VecV α} {y' : VecV β} (A : Mat)
    (hx : VecV.Related rel x x') (hy : VecV.Related rel y y') :
    Prog.Related rel Void (ger x y A) (ger x' y' A) := by
  obtain ⟨x, fx, gx, rfl, rfl, qx⟩ := hx.elim
  obtain ⟨y, fy, gy, rfl, rfl, qy⟩ := hy.elim
  unfold ger
  transfer H

theorem related_gerc (H : Respects rel) {x : VecV α} {x' : VecV β} {y : VecV α} {y' : VecV β} (A : Mat)
    (hx : VecV.Related rel x x') (hy : VecV.Related rel y y') :
    Prog.Related rel Void (gerc x y A) (gerc x' y' A) := by
  obtain ⟨x, fx, gx, rfl, rfl, qx⟩ := hx.elim
  obtain ⟨y, fy, gy, rfl, rfl, qy⟩ := hy.elim
  unfold gerc
  have hy' : ∀ {v w}, rel v w → rel (ConjOps.conj (fy v)) (ConjOps.conj (gy w)) := fun h => H.conj (qy h)
  unfold VecV.conjugated
  unfold ger
  transfer H

theorem related_syrAlpha (H : Respects rel) {alpha : α} {alpha' : β} {x : VecV α} {x' : VecV β} (A : Mat) (t : Triangle)
    (halpha : rel alpha alpha') (hx : VecV.Related rel x x') :
    Prog.Related rel Void (syrAlpha alpha x A t) (syrAlpha alpha' x' A t) := by
  obtain ⟨x, fx, gx, rfl, rfl, qx⟩ := hx.elim
  unfold syrAlpha
  transfer H

theorem related_syr (H : Respects rel) {x : VecV α} {x' : VecV β} (A : Mat) (t : Triangle)
    (hx : VecV.Related rel x x') :
    Prog.Related rel Void (syr x A t) (syr x' A t) := by
  obtain ⟨x, fx, gx, rfl, rfl, qx⟩ := hx.elim
  unfold syr
  transfer H

theorem related_syr2 (H : Respects rel) {x : VecV α} {x' : VecV β} {y : VecV α} {y' : VecV β} (A : Mat) (t : Triangle)
    (hx : VecV.Related rel x x') (hy : VecV.Related rel y y') :
    Prog.Related rel Void (syr2 x y A t) (syr2 x' y' A t) := by
  obtain ⟨x, fx, gx, rfl, rfl, qx⟩ := hx.elim
  obtain ⟨y, fy, gy, rfl, rfl, qy⟩ := hy.elim
  unfold syr2
  transfer H

theorem related_herAlpha (H : Respects rel) {alpha : α} {alpha' : β} {x : VecV α} {x' : VecV β} (A : Mat) (t : Triangle)
    (halpha : rel alpha alpha') (hx : VecV.Related rel x x') :
    Prog.Related rel Void (herAlpha alpha x A t) (herAlpha alpha' x' A t) := by
  obtain ⟨x, fx, gx, rfl, rfl, qx⟩ := hx.elim
  unfold herAlpha makeDiagReal
  transfer H

theorem related_her (H : Respects rel) {x : VecV α} {x' : VecV β} (A : Mat) (t : Triangle)
    (hx : VecV.Related rel x x') :
    Prog.Related rel Void (her x A t) (her x' A t) := by
  obtain ⟨x, fx, gx, rfl, rfl, qx⟩ := hx.elim
  unfold her makeDiagReal
  transfer H

theorem related_her2 (H : Respects rel) {x : VecV α} {x' : VecV β} {y : VecV α} {y' : VecV β} (A : Mat) (t : Triangle)
    (hx : VecV.Related rel x x') (hy : VecV.Related rel y y') :
    Prog.Related rel Void (her2 x y A t) (her2 x' y' A t) := by
  obtain ⟨x, fx, gx, rfl, rfl, qx⟩ := hx.elim
  obtain ⟨y, fy, gy, rfl, rfl, qy⟩ := hy.elim
  unfold her2 makeDiagReal
  transfer H

theorem related_syrkAlpha (H : Respects rel) {alpha : α} {alpha' : β} {A : MatV α} {A' : MatV β} (C : Mat) (t : Triangle)
    (halpha : rel alpha alpha') (hA : MatV.Related rel A A') :
    Prog.Related rel Void (syrkAlpha alpha A C t) (syrkAlpha alpha' A' C t) := by
  obtain ⟨A, fA, gA, rfl, rfl, qA⟩ := hA.elim
  unfold syrkAlpha
  transfer H

theorem related_syrk (H : Respects rel) {A : MatV α} {A' : MatV β} (C : Mat) (t : Triangle)
    (hA : MatV.Related rel A A') :
    Prog.Related rel Void (syrk A C t) (syrk A' C t) := by
  obtain ⟨A, fA, gA, rfl, rfl, qA⟩ := hA.elim
  unfold syrk
  transfer H

theorem related_syr2k (H : Respects rel) {A : MatV α} {A' : MatV β} {B : MatV α} {B' : MatV β} (C : Mat) (t : Triangle)
    (hA : MatV.Related rel A A') (hB : MatV.Related rel B B') :
    Prog.Related rel Void (syr2k A B C t) (syr2k A' B' C t) := by
  obtain ⟨A, fA, gA, rfl, rfl, qA⟩ := hA.elim
  obtain ⟨B, fB, gB, rfl, rfl, qB⟩ := hB.elim
  unfold syr2k
  transfer H

theorem related_herkAlpha (H : Respects rel) {alpha : α} {alpha' : β} {A : MatV α} {A' : MatV β} (C : Mat) (t : Triangle)
    (halpha : rel alpha alpha') (hA : MatV.Related rel A A') :
    Prog.Related rel Void (herkAlpha alpha A C t) (herkAlpha alpha' A' C t) := by
  obtain ⟨A, fA, gA, rfl, rfl, qA⟩ := hA.elim
  unfold herkAlpha makeDiagReal
  transfer H

theorem related_herk (H : Respects rel) {A : MatV α} {A' : MatV β} (C : Mat) (t : Triangle)
    (hA : MatV.Related rel A A') :
    Prog.Related rel Void (herk A C t) (herk A' C t) := by
  obtain ⟨A, fA, gA, rfl, rfl, qA⟩ := hA.elim
  unfold herk makeDiagReal
  transfer H

theorem related_her2k (H : Respects rel) {A : MatV α} {A' : MatV β} {B : MatV α} {B' : MatV β} (C : Mat) (t : Triangle)
    (hA : MatV.Related rel A A') (hB : MatV.Related rel B B') :
    Prog.Related rel Void (her2k A B C t) (her2k A' B' C t) := by
  obtain ⟨A, fA, gA, rfl, rfl, qA⟩ := hA.elim
  obtain ⟨B, fB, gB, rfl, rfl, qB⟩ := hB.elim
  unfold her2k makeDiagReal
  transfer H

theorem related_gemm (H : Respects rel) {A : MatV α} {A' : MatV β} {B : MatV α} {B' : MatV β} (C : Mat)
    (hA : MatV.Related rel A A') (hB : MatV.Related rel B B') :
    Prog.Related rel Void (gemm A B C) (gemm A' B' C) := by
  obtain ⟨A, fA, gA, rfl, rfl, qA⟩ := hA.elim
  obtain ⟨B, fB, gB, rfl, rfl, qB⟩ := hB.elim
  unfold gemm
  transfer H

theorem related_gemmUpdate (H : Respects rel) {A : MatV α} {A' : MatV β} {B : MatV α} {B' : MatV β} {E : MatV α} {E' : MatV β} (C : Mat)
    (hA : MatV.Related rel A A') (hB : MatV.Related rel B B') (hE : MatV.Related rel E E') :
    Prog.Related rel Void (gemmUpdate A B E C) (gemmUpdate A' B' E' C) := by
  obtain ⟨A, fA, gA, rfl, rfl, qA⟩ := hA.elim
  obtain ⟨B, fB, gB, rfl, rfl, qB⟩ := hB.elim
  obtain ⟨E, fE, gE, rfl, rfl, qE⟩ := hE.elim
  unfold gemmUpdate
  transfer H

theorem related_trmmLeft (H : Respects rel) {A : MatV α} {A' : MatV β} (t : Triangle) (d : Diag) {B : MatV α} {B' : MatV β} (C : Mat)
    (hA : MatV.Related rel A A') (hB : MatV.Related rel B B') :
    Prog.Related rel Void (trmmLeft A t d B C) (trmmLeft A' t d B' C) := by
  obtain ⟨A, fA, gA, rfl, rfl, qA⟩ := hA.elim
  obtain ⟨B, fB, gB, rfl, rfl, qB⟩ := hB.elim
  cases t <;> (
    unfold trmmLeft
    dsimp only
    transfer H)

theorem related_trmmRight (H : Respects rel) {B : MatV α} {B' : MatV β} {A : MatV α} {A' : MatV β} (t : Triangle) (d : Diag) (C : Mat)
    (hB : MatV.Related rel B B') (hA : MatV.Related rel A A') :
    Prog.Related rel Void (trmmRight B A t d C) (trmmRight B' A' t d C) := by
  obtain ⟨B, fB, gB, rfl, rfl, qB⟩ := hB.elim
  obtain ⟨A, fA, gA, rfl, rfl, qA⟩ := hA.elim
  cases t <;> (
    unfold trmmRight
    dsimp only
    transfer H)

theorem related_trmmLeftInPlace (H : Respects rel) {A : MatV α} {A' : MatV β} (t : Triangle) (d : Diag) (C : Mat)
    (hA : MatV.Related rel A A') :
    Prog.Related rel Void (trmmLeftInPlace A t d C) (trmmLeftInPlace A' t d C) := by
  obtain ⟨A, fA, gA, rfl, rfl, qA⟩ := hA.elim
  cases t <;> (
    unfold trmmLeftInPlace
    dsimp only
    transfer H)

theorem related_trmmRightInPlace (H : Respects rel) {A : MatV α} {A' : MatV β} (t : Triangle) (d : Diag) (C : Mat)
    (hA : MatV.Related rel A A') :
    Prog.Related rel Void (trmmRightInPlace A t d C) (trmmRightInPlace A' t d C) := by
  obtain ⟨A, fA, gA, rfl, rfl, qA⟩ := hA.elim
  cases t <;> (
    unfold trmmRightInPlace
    dsimp only
    transfer H)

theorem related_symmLeft (H : Respects rel) {A : MatV α} {A' : MatV β} (t : Triangle) {B : MatV α} {B' : MatV β} (C : Mat)
    (hA : MatV.Related rel A A') (hB : MatV.Related rel B B') :
    Prog.Related rel Void (symmLeft A t B C) (symmLeft A' t B' C) := by
  obtain ⟨A, fA, gA, rfl, rfl, qA⟩ := hA.elim
  obtain ⟨B, fB, gB, rfl, rfl, qB⟩ := hB.elim
  cases t <;> (
    unfold symmLeft
    dsimp only
    transfer H)

theorem related_symmRight (H : Respects rel) {B : MatV α} {B' : MatV β} {A : MatV α} {A' : MatV β} (t : Triangle) (C : Mat)
    (hB : MatV.Related rel B B') (hA : MatV.Related rel A A') :
    Prog.Related rel Void (symmRight B A t C) (symmRight B' A' t C) := by
  obtain ⟨B, fB, gB, rfl, rfl, qB⟩ := hB.elim
  obtain ⟨A, fA, gA, rfl, rfl, qA⟩ := hA.elim
  cases t <;> (
    unfold symmRight
    dsimp only
    transfer H)

theorem related_hemmLeft (H : Respects rel) {A : MatV α} {A' : MatV β} (t : Triangle) {B : MatV α} {B' : MatV β} (C : Mat)
    (hA : MatV.Related rel A A') (hB : MatV.Related rel B B') :
    Prog.Related rel Void (hemmLeft A t B C) (hemmLeft A' t B' C) := by
  obtain ⟨A, fA, gA, rfl, rfl, qA⟩ := hA.elim
  obtain ⟨B, fB, gB, rfl, rfl, qB⟩ := hB.elim
  cases t <;> (
    unfold hemmLeft
    dsimp only
    transfer H)

theorem related_hemmRight (H : Respects rel) {B : MatV α} {B' : MatV β} {A : MatV α} {A' : MatV β} (t : Triangle) (C : Mat)
    (hB : MatV.Related rel B B') (hA : MatV.Related rel A A') :
    Prog.Related rel Void (hemmRight B A t C) (hemmRight B' A' t C) := by
  obtain ⟨B, fB, gB, rfl, rfl, qB⟩ := hB.elim
  obtain ⟨A, fA, gA, rfl, rfl, qA⟩ := hA.elim
  cases t <;> (
    unfold hemmRight
    dsimp only
    transfer H)

theorem related_trsm (H : Respects rel) [Div α] [Div β] {A : MatV α} {A' : MatV β} (t : Triangle) (d : Diag) (side : Side) {B : MatV α} {B' : MatV β} (X : Mat)
    (hA : MatV.Related rel A A') (hB : MatV.Related rel B B') (hdiv : d = .explicit → RespectsDiv rel) :
    Prog.Related rel Void (trsm A t d side B X) (trsm A' t d side B' X) := by
  obtain ⟨A, fA, gA, rfl, rfl, qA⟩ := hA.elim
  obtain ⟨B, fB, gB, rfl, rfl, qB⟩ := hB.elim
  unfold RespectsDiv at hdiv
  cases t <;> cases side <;> (
    unfold trsm
    dsimp only
    first | unfold trsmLeft | unfold trsmRight
    dsimp only
    first | unfold trsmLowerLeft | unfold trsmUpperLeft | unfold trsmLowerRight | unfold trsmUpperRight
    dsimp only
    solve_rows hdiv)

theorem related_prog [Div α] [Div β]
    [Zero R] [One R] [Add R] [Mul R] [Div R] [FloatOps R] [MagOps α R]
    [Zero S] [One S] [Add S] [Mul S] [Div S] [FloatOps S] [MagOps β S]
    (H : Respects rel) {c : Call α R} {c' : Call β S} (hM : c.IsNorm → RespectsNorms rel srel)
    (hD : c.Divides → RespectsDiv rel) (hc : Call.Related rel srel c c') :
    Prog.Related rel Void c.prog c'.prog := by
  cases hc with
  | scale1 _ _ x halpha =>
    exact related_scale1 H x halpha
  | scale2 _ _ A halpha =>
    exact related_scale2 H A halpha
  | copy1 _ _ y hx =>
    exact related_copy1 H y hx
  | copy2 _ _ y hx =>
    exact related_copy2 H y hx
  | swap1 x y =>
    exact related_swap1 H x y
  | swap2 x y =>
    exact related_swap2 H x y
  | add1 _ _ _ _ z hx hy =>
    exact related_add1 H z hx hy
  | add2 _ _ _ _ z hx hy =>
    exact related_add2 H z hx hy
  | givens x y _ _ _ _ hc hs =>
    exact related_givens H x y hc hs
  | givensC x y _ _ _ _ hc hs =>
    exact related_givensC H x y hc hs
  | dot _ _ _ _ _ _ _ _ out hv1 hv2 hinit hf =>
    exact related_into (related_dot H hv1 hv2 hinit) hf out
  | dotc _ _ _ _ _ _ _ _ out hv1 hv2 hinit hf =>
    exact related_into (related_dotc H hv1 hv2 hinit) hf out
  | sumOfSquares _ _ _ _ _ _ out hx hinit hf =>
    exact related_into (related_sumOfSquares (hM trivial) hx hinit) hf out
  | twoNorm _ _ _ _ _ _ out hx hinit hf =>
    exact related_into (related_twoNorm (hM trivial) hx hinit) hf out
  | absSum _ _ _ _ _ _ out hx hinit hf =>
    exact related_into (related_absSum (hM trivial) hx hinit) hf out
  | idxAbsMax sizeMax _ _ _ _ out hx hf =>
    exact related_into (related_idxAbsMax (hM trivial) sizeMax hx) hf out
  | frobNorm _ _ _ _ _ _ out hA hinit hf =>
    exact related_into (related_frobNorm (hM trivial) hA hinit) hf out
  | oneNorm _ _ _ _ _ _ out hA hinit hf =>
    exact related_into (related_oneNorm (hM trivial) hA hinit) hf out
  | infNorm _ _ _ _ _ _ out hA hinit hf =>
    exact related_into (related_infNorm (hM trivial) hA hinit) hf out
  | gemv _ _ _ _ y hA hx =>
    exact related_gemv H y hA hx
  | gemvUpdate _ _ _ _ _ _ z hA hx hy =>
    exact related_gemvUpdate H z hA hx hy
  | symv _ _ t _ _ y hA hx =>
    exact related_symv H t y hA hx
  | symvUpdate _ _ t _ _ _ _ z hA hx hy =>
    exact related_symvUpdate H t z hA hx hy
  | hemv _ _ t _ _ y hA hx =>
    exact related_hemv H t y hA hx
  | hemvUpdate _ _ t _ _ _ _ z hA hx hy =>
    exact related_hemvUpdate H t z hA hx hy
  | trmv _ _ t d _ _ y hA hx =>
    exact related_trmv H t d y hA hx
  | trmvUpdate _ _ t d _ _ _ _ z hA hx hy =>
    exact related_trmvUpdate H t d z hA hx hy
  | trmvInPlace _ _ t d y hA =>
    exact related_trmvInPlace H t d y hA
  | trsv _ _ _ _ t d _ _ x hdivide hA hb =>
    exact related_trsv H t d x hdivide hA hb
  | ger _ _ _ _ A hx hy =>
    exact related_ger H A hx hy
  | gerc _ _ _ _ A hx hy =>
    exact related_gerc H A hx hy
  | syrAlpha _ _ _ _ A t halpha hx =>
    exact related_syrAlpha H A t halpha hx
  | syr _ _ A t hx =>
    exact related_syr H A t hx
  | syr2 _ _ _ _ A t hx hy =>
    exact related_syr2 H A t hx hy
  | herAlpha _ _ _ _ A t halpha hx =>
    exact related_herAlpha H A t halpha hx
  | her _ _ A t hx =>
    exact related_her H A t hx
  | her2 _ _ _ _ A t hx hy =>
    exact related_her2 H A t hx hy
  | syrkAlpha _ _ _ _ C t halpha hA =>
    exact related_syrkAlpha H C t halpha hA
  | syrk _ _ C t hA =>
    exact related_syrk H C t hA
  | syr2k _ _ _ _ C t hA hB =>
    exact related_syr2k H C t hA hB
  | herkAlpha _ _ _ _ C t halpha hA =>
    exact related_herkAlpha H C t halpha hA
  | herk _ _ C t hA =>
    exact related_herk H C t hA
  | her2k _ _ _ _ C t hA hB =>
    exact related_her2k H C t hA hB
  | gemm _ _ _ _ C hA hB =>
    exact related_gemm H C hA hB
  | gemmUpdate _ _ _ _ _ _ C hA hB hE =>
    exact related_gemmUpdate H C hA hB hE
  | trmmLeft _ _ t d _ _ C hA hB =>
    exact related_trmmLeft H t d C hA hB
  | trmmRight _ _ _ _ t d C hB hA =>
    exact related_trmmRight H t d C hB hA
  | trmmLeftInPlace _ _ t d C hA =>
    exact related_trmmLeftInPlace H t d C hA
  | trmmRightInPlace _ _ t d C hA =>
    exact related_trmmRightInPlace H t d C hA
  | symmLeft _ _ t _ _ C hA hB =>
    exact related_symmLeft H t C hA hB
  | symmRight _ _ _ _ t C hB hA =>
    exact related_symmRight H t C hB hA
  | hemmLeft _ _ t _ _ C hA hB =>
    exact related_hemmLeft H t C hA hB
  | hemmRight _ _ _ _ t C hB hA =>
    exact related_hemmRight H t C hB hA
  | trsm _ _ t d side _ _ X hA hB =>
    exact related_trsm H t d side X hA hB hD

end StdBLAS

import Verif.Spec.Transfer

/-!
# Lemmas for C76: programs over two element types
-/

namespace StdBLAS
variable {α β γ δ γ' δ' ι R S : Type}

/-- Two programs do the same in all related memories. -/
def Prog.Related (rel : α → β → Prop) (res : γ → δ → Prop) (p : Prog α γ) (q : Prog β δ) : Prop :=
  ∀ h k, Heap.Related rel h k → DoSame rel res p q h k

variable {rel : α → β → Prop} {res : γ → δ → Prop} {res' : γ' → δ' → Prop}

theorem related_pure {a : γ} {b : δ} (hab : res a b) :
    Prog.Related rel res (pure a : Prog α γ) (pure b : Prog β δ) :=
  fun h k hk => .inr ⟨a, b, h, k, rfl, rfl, hab, hk⟩

theorem related_fail (e : Err) :
    Prog.Related rel res (Prog.fail e : Prog α γ) (Prog.fail e : Prog β δ) :=
  fun _ _ _ => .inl ⟨e, rfl, rfl⟩

theorem related_bind {p : Prog α γ} {q : Prog β δ} {f : γ → Prog α γ'} {g : δ → Prog β δ'}
    (hp : Prog.Related rel res p q)
    (hf : ∀ a b, res a b → Prog.Related rel res' (f a) (g b)) :
    Prog.Related rel res' (p >>= f) (q >>= g) := by
  intro h k hk
  rcases hp h k hk with ⟨e, e1, e2⟩ | ⟨a, b, h', k', e1, e2, r, hk'⟩
  · left
    refine ⟨e, ?_, ?_⟩
    · change Prog.seq p f h = _; unfold Prog.seq; rw [e1]
    · change Prog.seq q g k = _; unfold Prog.seq; rw [e2]
  · have h1 : (p >>= f) h = f a h' := by change Prog.seq p f h = _; unfold Prog.seq; rw [e1]
    have h2 : (q >>= g) k = g b k' := by change Prog.seq q g k = _; unfold Prog.seq; rw [e2]
    rcases hf a b r h' k' hk' with ⟨e, e1, e2⟩ | ⟨a', b', h'', k'', e1, e2, r', hk''⟩
    · exact .inl ⟨e, h1.trans e1, h2.trans e2⟩
    · exact .inr ⟨a', b', h'', k'', h1.trans e1, h2.trans e2, r', hk''⟩

theorem related_load (a : Nat) :
    Prog.Related rel rel (Prog.load a : Prog α α) (Prog.load a : Prog β β) := by
  intro h k hk
  have ha := hk a
  cases e1 : h a <;> cases e2 : k a <;> rw [e1, e2] at ha
  · left; exact ⟨.ub, by unfold Prog.load; rw [e1], by unfold Prog.load; rw [e2]⟩
  · cases ha
  · cases ha
  · right
    cases ha with
    | some hvw => exact ⟨_, _, h, k, by unfold Prog.load; rw [e1], by unfold Prog.load; rw [e2],
        hvw, hk⟩

/-- The relation for a result `void`. -/
abbrev Void : Unit → Unit → Prop := fun _ _ => True

theorem related_store (a : Nat) {v : α} {w : β} (hvw : rel v w) :
    Prog.Related rel Void (Prog.store a v) (Prog.store a w) := by
  intro h k hk
  have ha := hk a
  cases e1 : h a <;> cases e2 : k a <;> rw [e1, e2] at ha
  · left; exact ⟨.ub, by unfold Prog.store; rw [e1], by unfold Prog.store; rw [e2]⟩
  · cases ha
  · cases ha
  · right
    refine ⟨(), (), _, _, by unfold Prog.store; rw [e1], by unfold Prog.store; rw [e2],
        trivial, fun b => ?_⟩
    by_cases hb : b = a
    · subst hb
      rw [Function.update_self, Function.update_self]
      exact .some hvw
    · rw [Function.update_of_ne hb, Function.update_of_ne hb]
      exact hk b

theorem related_ite {c : Prop} [Decidable c] {p p' : Prog α γ} {q q' : Prog β δ}
    (h1 : Prog.Related rel res p q) (h2 : Prog.Related rel res p' q') :
    Prog.Related rel res (if c then p else p') (if c then q else q') := by
  split
  · exact h1
  · exact h2

theorem related_ite_pos {c : Prop} [Decidable c] {p p' : Prog α γ} {q q' : Prog β δ}
    (h1 : c → Prog.Related rel res p q) (h2 : Prog.Related rel res p' q') :
    Prog.Related rel res (if c then p else p') (if c then q else q') := by
  split
  · next h => exact h1 h
  · exact h2

theorem related_ite_bool {c d : Bool} (hcd : c = d) {p p' : Prog α γ} {q q' : Prog β δ}
    (h1 : Prog.Related rel res p q) (h2 : Prog.Related rel res p' q') :
    Prog.Related rel res (if c then p else p') (if d then q else q') := by
  subst hcd
  split
  · exact h1
  · exact h2

theorem related_forEach (l : List ι) {f : ι → Prog α Unit} {g : ι → Prog β Unit}
    (hf : ∀ i, Prog.Related rel Void (f i) (g i)) :
    Prog.Related rel Void (forEach l f) (forEach l g) := by
  induction l with
  | nil => exact related_pure trivial
  | cons i l ih => exact related_bind (hf i) fun _ _ _ => ih

theorem related_forUp (lo hi : Nat) {f : Nat → Prog α Unit} {g : Nat → Prog β Unit}
    (hf : ∀ i, Prog.Related rel Void (f i) (g i)) :
    Prog.Related rel Void (forUp lo hi f) (forUp lo hi g) := related_forEach _ hf

theorem related_forDown (n : Nat) {f : Nat → Prog α Unit} {g : Nat → Prog β Unit}
    (hf : ∀ i, Prog.Related rel Void (f i) (g i)) :
    Prog.Related rel Void (forDown n f) (forDown n g) := related_forEach _ hf

theorem related_foldEach (l : List ι) {s : γ} {t : δ} {f : γ → ι → Prog α γ}
    {g : δ → ι → Prog β δ} (hs : res s t)
    (hf : ∀ a b i, res a b → Prog.Related rel res (f a i) (g b i)) :
    Prog.Related rel res (foldEach l s f) (foldEach l t g) := by
  induction l generalizing s t with
  | nil => exact related_pure hs
  | cons i l ih => exact related_bind (hf s t i hs) fun _ _ h => ih h

/-! ### Elements of views -/

theorem related_vec_get (x : Vec) (i : Nat) :
    Prog.Related rel rel (x.get i : Prog α α) (x.get i : Prog β β) :=
  related_ite (related_load _) (related_fail _)

theorem related_mat_get (A : Mat) (i j : Nat) :
    Prog.Related rel rel (A.get i j : Prog α α) (A.get i j : Prog β β) :=
  related_ite (related_load _) (related_fail _)

theorem related_vecV_get {x : Vec} {f : α → α} {g : β → β}
    (hx : ∀ {v w}, rel v w → rel (f v) (g w)) (i : Nat) :
    Prog.Related rel rel ((⟨x, f⟩ : VecV α).get i) ((⟨x, g⟩ : VecV β).get i) :=
  related_ite (related_bind (related_load _) fun _ _ h => related_pure (hx h)) (related_fail _)

theorem related_matV_get {A : Mat} {f : α → α} {g : β → β}
    (hx : ∀ {v w}, rel v w → rel (f v) (g w)) (i j : Nat) :
    Prog.Related rel rel ((⟨A, f⟩ : MatV α).get i j) ((⟨A, g⟩ : MatV β).get i j) :=
  related_ite (related_bind (related_load _) fun _ _ h => related_pure (hx h)) (related_fail _)

theorem related_vec_set (x : Vec) (i : Nat) {v : α} {w : β} (hvw : rel v w) :
    Prog.Related rel Void (x.set i v) (x.set i w) :=
  related_ite (related_store _ hvw) (related_fail _)

theorem related_mat_set (A : Mat) (i j : Nat) {v : α} {w : β} (hvw : rel v w) :
    Prog.Related rel Void (A.set i j v) (A.set i j w) :=
  related_ite (related_store _ hvw) (related_fail _)

theorem VecV.Related.elim {x : VecV α} {y : VecV β} (h : VecV.Related rel x y) :
    ∃ v f g, x = ⟨v, f⟩ ∧ y = ⟨v, g⟩ ∧ ∀ {a b}, rel a b → rel (f a) (g b) := by
  obtain ⟨v, f⟩ := x
  obtain ⟨w, g⟩ := y
  obtain ⟨e, hf⟩ := h
  change v = w at e
  subst e
  exact ⟨v, f, g, rfl, rfl, hf⟩

theorem MatV.Related.elim {A : MatV α} {B : MatV β} (h : MatV.Related rel A B) :
    ∃ v f g, A = ⟨v, f⟩ ∧ B = ⟨v, g⟩ ∧ ∀ {a b}, rel a b → rel (f a) (g b) := by
  obtain ⟨v, f⟩ := A
  obtain ⟨w, g⟩ := B
  obtain ⟨e, hf⟩ := h
  change v = w at e
  subst e
  exact ⟨v, f, g, rfl, rfl, hf⟩

theorem related_vec_addTo [Add α] [Add β]
    (hadd : ∀ {a b c d}, rel a b → rel c d → rel (a + c) (b + d)) (x : Vec) (i : Nat) {v : α} {w : β}
    (hvw : rel v w) : Prog.Related rel Void (x.addTo i v) (x.addTo i w) :=
  related_bind (related_vec_get x i) fun _ _ h => related_vec_set x i (hadd h hvw)

theorem related_mat_addTo [Add α] [Add β]
    (hadd : ∀ {a b c d}, rel a b → rel c d → rel (a + c) (b + d)) (A : Mat) (i j : Nat) {v : α}
    {w : β} (hvw : rel v w) : Prog.Related rel Void (A.addTo i j v) (A.addTo i j w) :=
  related_bind (related_mat_get A i j) fun _ _ h => related_mat_set A i j (hadd h hvw)

theorem related_triangleLoop (rows cols : Nat) (t : Triangle) {pre : Nat → Prog α Unit}
    {pre' : Nat → Prog β Unit} {body : Nat → Nat → Prog α Unit} {body' : Nat → Nat → Prog β Unit}
    (hp : ∀ j, Prog.Related rel Void (pre j) (pre' j))
    (hb : ∀ i j, Prog.Related rel Void (body i j) (body' i j)) :
    Prog.Related rel Void (triangleLoop rows cols t pre body) (triangleLoop rows cols t pre' body') := by
  refine related_forUp _ _ fun j => related_bind (hp j) fun _ _ _ => ?_
  cases t
  · exact related_forUp _ _ fun i => hb i j
  · exact related_forUp _ _ fun i => hb i j

/-- Related values: from the hypotheses, with the operations of `H : Respects rel`. -/
macro "values" H:ident : tactic => `(tactic| (
  repeat' first
  | assumption
  | with_reducible refine ($H).zero
  | with_reducible refine ($H).add ?_ ?_
  | with_reducible refine ($H).sub ?_ ?_
  | with_reducible refine ($H).mul ?_ ?_
  | with_reducible refine ($H).conj ?_
  | with_reducible refine ($H).re ?_
  | trivial))

set_option hygiene false in
/-- Goes through two programs of the same shape (the relation is `rel`). -/
macro "transfer" H:ident : tactic => `(tactic| (
  repeat' first
  | with_reducible refine related_forUp _ _ fun _ => ?_
  | with_reducible refine related_forDown _ fun _ => ?_
  | with_reducible refine related_triangleLoop _ _ _ (fun _ => ?_) fun _ _ => ?_
  | with_reducible refine related_bind (related_vec_get _ _) fun _ _ _ => ?_
  | with_reducible refine related_bind (related_mat_get _ _ _) fun _ _ _ => ?_
  | with_reducible refine related_bind (related_vecV_get (by assumption) _) fun _ _ _ => ?_
  | with_reducible refine related_bind (related_matV_get (by assumption) _ _) fun _ _ _ => ?_
  | with_reducible refine related_bind (res := Void) ?_ fun _ _ _ => ?_
  | with_reducible refine related_bind (res := rel) ?_ fun _ _ _ => ?_
  | with_reducible exact related_vecV_get (by assumption) _
  | with_reducible exact related_matV_get (by assumption) _ _
  | with_reducible refine related_foldEach (res := rel) _ ?_ fun _ _ _ _ => ?_
  | with_reducible refine related_vec_set _ _ ?_
  | with_reducible refine related_mat_set _ _ _ ?_
  | with_reducible refine related_vec_addTo ($H).add _ _ ?_
  | with_reducible refine related_mat_addTo ($H).add _ _ _ ?_
  | with_reducible refine related_pure ?_
  | with_reducible refine related_ite_pos (fun _ => ?_) ?_
  | (values $H; done)))

set_option hygiene false in
/-- Goes through two loops over the rows of a solve; `hd` is about the division. -/
macro "solve_rows" hd:ident : tactic => `(tactic| (
  transfer H
  all_goals first
  | with_reducible exact $hd (by assumption) (by assumption) (by assumption)))

end StdBLAS

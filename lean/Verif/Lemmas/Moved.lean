import Verif.Spec.Moved

/-!
# Lemmas for C77: programs on arguments in other places
-/

namespace StdBLAS
variable {α γ δ ι : Type} {p : Nat → Nat → Prop}

/-- Two programs do the same in all memories that correspond. -/
def Prog.Moved (p : Nat → Nat → Prop) (f g : Prog α γ) : Prop :=
  ∀ h k, Heap.Moved p h k → DoSameMoved p f g h k

theorem moved_pure (a : γ) : Prog.Moved p (pure a : Prog α γ) (pure a) :=
  fun h k hk => .inr ⟨a, h, k, rfl, rfl, hk, fun _ _ => rfl, fun _ _ => rfl⟩

theorem moved_fail (e : Err) : Prog.Moved p (Prog.fail e : Prog α γ) (Prog.fail e) :=
  fun _ _ _ => .inl ⟨e, rfl, rfl⟩

theorem moved_bind {f g : Prog α γ} {f' g' : γ → Prog α δ} (hf : Prog.Moved p f g)
    (hf' : ∀ a, Prog.Moved p (f' a) (g' a)) : Prog.Moved p (f >>= f') (g >>= g') := by
  intro h k hk
  rcases hf h k hk with ⟨e, e1, e2⟩ | ⟨a, h', k', e1, e2, hk', u, u'⟩
  · left
    refine ⟨e, ?_, ?_⟩
    · change Prog.seq f f' h = _; unfold Prog.seq; rw [e1]
    · change Prog.seq g g' k = _; unfold Prog.seq; rw [e2]
  · have h1 : (f >>= f') h = f' a h' := by change Prog.seq f f' h = _; unfold Prog.seq; rw [e1]
    have h2 : (g >>= g') k = g' a k' := by change Prog.seq g g' k = _; unfold Prog.seq; rw [e2]
    rcases hf' a h' k' hk' with ⟨e, e1, e2⟩ | ⟨b, h'', k'', e1, e2, hk'', v, v'⟩
    · exact .inl ⟨e, h1.trans e1, h2.trans e2⟩
    · exact .inr ⟨b, h'', k'', h1.trans e1, h2.trans e2, hk'',
        fun x hx => (v x hx).trans (u x hx), fun x hx => (v' x hx).trans (u' x hx)⟩

theorem moved_load {a b : Nat} (hab : p a b) : Prog.Moved p (Prog.load a : Prog α α) (Prog.load b) := by
  intro h k hk
  have e := hk a b hab
  unfold DoSameMoved Prog.load
  rw [e]
  cases k b with
  | none => exact .inl ⟨.ub, rfl, rfl⟩
  | some v => exact .inr ⟨v, h, k, rfl, rfl, hk, fun _ _ => rfl, fun _ _ => rfl⟩

theorem moved_store (H : OneToOne p) {a b : Nat} (hab : p a b) (v : α) :
    Prog.Moved p (Prog.store a v) (Prog.store b v) := by
  intro h k hk
  have e := hk a b hab
  unfold DoSameMoved Prog.store
  rw [e]
  cases k b with
  | none => exact .inl ⟨.ub, rfl, rfl⟩
  | some w =>
    refine .inr ⟨(), _, _, rfl, rfl, fun a' b' hab' => ?_, fun a' ha' => ?_, fun b' hb' => ?_⟩
    · by_cases ea : a' = a
      · have eb := (H hab' hab).1 ea
        rw [ea, eb, Function.update_self, Function.update_self]
      · have eb : b' ≠ b := fun c => ea ((H hab' hab).2 c)
        rw [Function.update_of_ne ea, Function.update_of_ne eb]
        exact hk a' b' hab'
    · exact Function.update_of_ne (fun c : a' = a => ha' b (c ▸ hab)) _ _
    · exact Function.update_of_ne (fun c : b' = b => hb' a (c ▸ hab)) _ _

theorem moved_ite {c : Prop} [Decidable c] {f g f' g' : Prog α γ} (h1 : Prog.Moved p f g)
    (h2 : Prog.Moved p f' g') : Prog.Moved p (if c then f else f') (if c then g else g') := by
  split
  · exact h1
  · exact h2

theorem moved_guard {c : Prop} [Decidable c] {f g f' g' : Prog α γ} (h1 : c → Prog.Moved p f g)
    (h2 : Prog.Moved p f' g') : Prog.Moved p (if c then f else f') (if c then g else g') := by
  split
  · next h => exact h1 h
  · exact h2

theorem moved_forEach (l : List ι) {f g : ι → Prog α Unit} (hf : ∀ i, Prog.Moved p (f i) (g i)) :
    Prog.Moved p (forEach l f) (forEach l g) := by
  induction l with
  | nil => exact moved_pure ()
  | cons i l ih => exact moved_bind (hf i) fun _ => ih

theorem moved_forUp (lo hi : Nat) {f g : Nat → Prog α Unit} (hf : ∀ i, Prog.Moved p (f i) (g i)) :
    Prog.Moved p (forUp lo hi f) (forUp lo hi g) := moved_forEach _ hf

theorem moved_forDown (n : Nat) {f g : Nat → Prog α Unit} (hf : ∀ i, Prog.Moved p (f i) (g i)) :
    Prog.Moved p (forDown n f) (forDown n g) := moved_forEach _ hf

theorem moved_foldEach (l : List ι) {s : γ} {f g : γ → ι → Prog α γ}
    (hf : ∀ a i, Prog.Moved p (f a i) (g a i)) :
    Prog.Moved p (foldEach l s f) (foldEach l s g) := by
  induction l generalizing s with
  | nil => exact moved_pure s
  | cons i l ih => exact moved_bind (hf s i) fun _ => ih

/-! ### Elements of views -/

theorem moved_vec_get {n : Nat} {a b : Nat → Nat} (q : ∀ i, i < n → p (a i) (b i)) (i : Nat) :
    Prog.Moved p ((⟨n, a⟩ : Vec).get i : Prog α α) ((⟨n, b⟩ : Vec).get i) :=
  moved_guard (fun hi => moved_load (q i hi)) (moved_fail _)

theorem moved_mat_get {m n : Nat} {a b : Nat → Nat → Nat}
    (q : ∀ i j, i < m → j < n → p (a i j) (b i j)) (i j : Nat) :
    Prog.Moved p ((⟨m, n, a⟩ : Mat).get i j : Prog α α) ((⟨m, n, b⟩ : Mat).get i j) :=
  moved_guard (fun hi => moved_load (q i j hi.1 hi.2)) (moved_fail _)

theorem moved_vecV_get {n : Nat} {a b : Nat → Nat} {f : α → α} (q : ∀ i, i < n → p (a i) (b i))
    (i : Nat) : Prog.Moved p ((⟨⟨n, a⟩, f⟩ : VecV α).get i) ((⟨⟨n, b⟩, f⟩ : VecV α).get i) :=
  moved_guard (fun hi => moved_bind (moved_load (q i hi)) fun _ => moved_pure _) (moved_fail _)

theorem moved_matV_get {m n : Nat} {a b : Nat → Nat → Nat} {f : α → α}
    (q : ∀ i j, i < m → j < n → p (a i j) (b i j)) (i j : Nat) :
    Prog.Moved p ((⟨⟨m, n, a⟩, f⟩ : MatV α).get i j) ((⟨⟨m, n, b⟩, f⟩ : MatV α).get i j) :=
  moved_guard (fun hi => moved_bind (moved_load (q i j hi.1 hi.2)) fun _ => moved_pure _) (moved_fail _)

theorem moved_vec_set (H : OneToOne p) {n : Nat} {a b : Nat → Nat} (q : ∀ i, i < n → p (a i) (b i))
    (i : Nat) (v : α) : Prog.Moved p ((⟨n, a⟩ : Vec).set i v) ((⟨n, b⟩ : Vec).set i v) :=
  moved_guard (fun hi => moved_store H (q i hi) v) (moved_fail _)

theorem moved_mat_set (H : OneToOne p) {m n : Nat} {a b : Nat → Nat → Nat}
    (q : ∀ i j, i < m → j < n → p (a i j) (b i j)) (i j : Nat) (v : α) :
    Prog.Moved p ((⟨m, n, a⟩ : Mat).set i j v) ((⟨m, n, b⟩ : Mat).set i j v) :=
  moved_guard (fun hi => moved_store H (q i j hi.1 hi.2) v) (moved_fail _)

theorem moved_vec_addTo [Add α] (H : OneToOne p) {n : Nat} {a b : Nat → Nat}
    (q : ∀ i, i < n → p (a i) (b i)) (i : Nat) (v : α) :
    Prog.Moved p ((⟨n, a⟩ : Vec).addTo i v) ((⟨n, b⟩ : Vec).addTo i v) :=
  moved_bind (moved_vec_get q i) fun _ => moved_vec_set H q i _

theorem moved_mat_addTo [Add α] (H : OneToOne p) {m n : Nat} {a b : Nat → Nat → Nat}
    (q : ∀ i j, i < m → j < n → p (a i j) (b i j)) (i j : Nat) (v : α) :
    Prog.Moved p ((⟨m, n, a⟩ : Mat).addTo i j v) ((⟨m, n, b⟩ : Mat).addTo i j v) :=
  moved_bind (moved_mat_get q i j) fun _ => moved_mat_set H q i j _

theorem moved_triangleLoop (rows cols : Nat) (t : Triangle) {pre pre' : Nat → Prog α Unit}
    {body body' : Nat → Nat → Prog α Unit} (hp : ∀ j, Prog.Moved p (pre j) (pre' j))
    (hb : ∀ i j, Prog.Moved p (body i j) (body' i j)) :
    Prog.Moved p (triangleLoop rows cols t pre body) (triangleLoop rows cols t pre' body') := by
  refine moved_forUp _ _ fun j => moved_bind (hp j) fun _ => ?_
  cases t
  · exact moved_forUp _ _ fun i => hb i j
  · exact moved_forUp _ _ fun i => hb i j

theorem moved_into (H : OneToOne p) {f g : Prog α γ} (hf : Prog.Moved p f g) (r : γ → α)
    {out out' : Nat} (ho : p out out') : Prog.Moved p (f.into r out) (g.into r out') :=
  moved_bind hf fun _ => moved_store H ho _

theorem Vec.Moved.elim {x y : Vec} (h : Vec.Moved p x y) :
    ∃ n a b, x = ⟨n, a⟩ ∧ y = ⟨n, b⟩ ∧ ∀ i, i < n → p (a i) (b i) := by
  obtain ⟨n, a⟩ := x
  obtain ⟨n', b⟩ := y
  obtain ⟨e, q⟩ := h
  cases e
  exact ⟨n, a, b, rfl, rfl, q⟩

theorem Mat.Moved.elim {A B : Mat} (h : Mat.Moved p A B) :
    ∃ m n a b, A = ⟨m, n, a⟩ ∧ B = ⟨m, n, b⟩ ∧ ∀ i j, i < m → j < n → p (a i j) (b i j) := by
  obtain ⟨m, n, a⟩ := A
  obtain ⟨m', n', b⟩ := B
  obtain ⟨e, e', q⟩ := h
  cases e
  cases e'
  exact ⟨m, n, a, b, rfl, rfl, q⟩

theorem VecV.Moved.elim {x y : VecV α} (h : VecV.Moved p x y) :
    ∃ n a b f, x = ⟨⟨n, a⟩, f⟩ ∧ y = ⟨⟨n, b⟩, f⟩ ∧ ∀ i, i < n → p (a i) (b i) := by
  obtain ⟨x, f⟩ := x
  obtain ⟨y, g⟩ := y
  obtain ⟨hv, e⟩ := h
  cases e
  obtain ⟨n, a, b, rfl, rfl, q⟩ := hv.elim
  exact ⟨n, a, b, f, rfl, rfl, q⟩

theorem MatV.Moved.elim {A B : MatV α} (h : MatV.Moved p A B) :
    ∃ m n a b f, A = ⟨⟨m, n, a⟩, f⟩ ∧ B = ⟨⟨m, n, b⟩, f⟩ ∧
      ∀ i j, i < m → j < n → p (a i j) (b i j) := by
  obtain ⟨A, f⟩ := A
  obtain ⟨B, g⟩ := B
  obtain ⟨hm, e⟩ := h
  cases e
  obtain ⟨m, n, a, b, rfl, rfl, q⟩ := hm.elim
  exact ⟨m, n, a, b, f, rfl, rfl, q⟩

/-- Goes through two programs that differ in the places of their arguments. -/
macro "relocate" H:ident : tactic => `(tactic| (
  repeat' first
  | with_reducible refine moved_forUp _ _ fun _ => ?_
  | with_reducible refine moved_forDown _ fun _ => ?_
  | with_reducible refine moved_triangleLoop _ _ _ (fun _ => ?_) fun _ _ => ?_
  | with_reducible refine moved_bind (moved_vec_get (by assumption) _) fun _ => ?_
  | with_reducible refine moved_bind (moved_mat_get (by assumption) _ _) fun _ => ?_
  | with_reducible refine moved_bind (moved_vecV_get (by assumption) _) fun _ => ?_
  | with_reducible refine moved_bind (moved_matV_get (by assumption) _ _) fun _ => ?_
  | with_reducible refine moved_bind ?_ fun _ => ?_
  | with_reducible exact moved_vecV_get (by assumption) _
  | with_reducible exact moved_matV_get (by assumption) _ _
  | with_reducible exact moved_vec_get (by assumption) _
  | with_reducible exact moved_mat_get (by assumption) _ _
  | with_reducible refine moved_foldEach _ fun _ _ => ?_
  | with_reducible exact moved_vec_set $H (by assumption) _ _
  | with_reducible exact moved_mat_set $H (by assumption) _ _ _
  | with_reducible exact moved_vec_addTo $H (by assumption) _ _
  | with_reducible exact moved_mat_addTo $H (by assumption) _ _ _
  | with_reducible exact moved_pure _
  | with_reducible refine moved_ite ?_ ?_))

end StdBLAS

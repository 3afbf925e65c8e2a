import Verif.Spec.Chart
import Verif.Proof.Shuffle

/-! # Corresponding states, results and random streams -/

namespace Soil

variable {F : Type}

/-! ## Results -/

/-- If the first result is a value, the second is a corresponding one, or (if `E`) an access out of range. -/
def Corr {α β : Type} (E : Prop) (R : α → β → Prop) (f : M α) (f' : M β) : Prop :=
  ∀ x, f = .ok x → (∃ x', f' = .ok x' ∧ R x x') ∨ (E ∧ f' = .error .oob)

theorem Corr.ok {α β : Type} {E : Prop} {R : α → β → Prop} {x : α} {x' : β} (h : R x x') :
    Corr E R (.ok x) (.ok x') := by
  rintro y ⟨⟩
  exact .inl ⟨x', rfl, h⟩

theorem Corr.bind {α β γ δ : Type} {E : Prop} {R : α → β → Prop} {Q : γ → δ → Prop} {f : M α} {f' : M β}
    {k : α → M γ} {k' : β → M δ} (h : Corr E R f f') (hk : ∀ x x', R x x' → Corr E Q (k x) (k' x')) :
    Corr E Q (f >>= k) (f' >>= k') := by
  intro y hy
  cases f with
  | error e => cases hy
  | ok x =>
    rcases h x rfl with ⟨x', rfl, hr⟩ | ⟨hE, rfl⟩
    · exact hk x x' hr y hy
    · exact .inr ⟨hE, rfl⟩

theorem Corr.guard {γ δ : Type} {E P P' : Prop} [Decidable P] [Decidable P'] {Q : γ → δ → Prop} {k : M γ} {k' : M δ}
    (h : P → P' ∨ E) (hk : P → P' → Corr E Q k k') :
    Corr E Q (guardOob P >>= fun _ => k) (guardOob P' >>= fun _ => k') := by
  intro y hy
  by_cases hp : P
  · by_cases hp' : P'
    · simp only [guardOob, hp, hp', if_true] at hy ⊢
      exact hk hp hp' y hy
    · right
      refine ⟨(h hp).resolve_left hp', ?_⟩
      simp only [guardOob, hp', if_false]
      rfl
  · simp only [guardOob, hp, if_false] at hy
    cases hy

theorem Corr.mono {α β : Type} {E : Prop} {R Q : α → β → Prop} {f : M α} {f' : M β} (h : Corr E R f f')
    (hq : ∀ x x', R x x' → Q x x') : Corr E Q f f' := by
  intro x hx
  rcases h x hx with ⟨x', e, hr⟩ | h
  · exact .inl ⟨x', e, hq _ _ hr⟩
  · exact .inr h

theorem Corr.err {α β : Type} {E : Prop} {R : α → β → Prop} {e : Err} {f' : M β} : Corr E R (.error e : M α) f' := by
  rintro y ⟨⟩

/-! ## Columns -/

namespace Chart

variable (c : Chart)

theorem on_inj {p q : ℤ × ℤ} (h : c.on p = c.on q) : p = q := by
  obtain ⟨a, b⟩ := p
  obtain ⟨d, e⟩ := q
  unfold on lin at h
  split at h <;> simp only [Prod.mk.injEq, add_left_inj] at h ⊢ <;> tauto

theorem on_add (p d : ℤ × ℤ) (n : ℤ) :
    c.on (p.1 + n * d.1, p.2 + n * d.2) = ((c.on p).1 + n * (c.lin d).1, (c.on p).2 + n * (c.lin d).2) := by
  unfold on lin
  split <;> simp only [Prod.mk.injEq] <;> constructor <;> ring

theorem on_add1 (i j : ℤ) (d : ℤ × ℤ) :
    c.on (i + d.1, j + d.2) = ((c.on (i, j)).1 + (c.lin d).1, (c.on (i, j)).2 + (c.lin d).2) := by
  have := c.on_add (i, j) d 1
  simpa using this

theorem lin_lin (d : ℤ × ℤ) : c.lin (c.lin d) = d := by
  unfold lin
  split <;> rfl

end Chart

/-- equal heights in column `(i, j)` of `s` and column `(i', j')` of `s'` -/
structure SameCol (s s' : SimOut F) (i j i' j' : ℤ) : Prop where
  terrain : s'.terrain i' j' = s.terrain i j
  body : ∀ k, s'.body k i' j' = s.body k i j
  bodySoil : ∀ k, s'.bodySoil k i' j' = s.bodySoil k i j

namespace Like

variable {E : Prop} {c : Chart} {s s' : SimOut F}

theorem col (h : Like E c s s') {i j i' j' : ℤ} (hi : s.InGrid i j) (hi' : s'.InGrid i' j') (e : c.on (i, j) = (i', j')) :
    SameCol s s' i j i' j' := by
  have e1 : i' = (c.on (i, j)).1 := by rw [e]
  have e2 : j' = (c.on (i, j)).2 := by rw [e]
  subst e1 e2
  exact ⟨h.terrain i j hi hi', fun k => h.body k i j hi hi', fun k => h.bodySoil k i j hi hi'⟩

theorem setT (h : Like E c s s') {i j i' j' : ℤ} (e : c.on (i, j) = (i', j')) (v : F) :
    Like E c (s.setT i j v) (s'.setT i' j' v) := by
  refine ⟨h.grid, fun a b ha hb => ?_, h.body, h.bodySoil, h.entries, h.equilibrium⟩
  by_cases hab : (a, b) = (i, j)
  · obtain ⟨rfl, rfl⟩ := Prod.mk.injEq .. ▸ hab
    rw [e]
    simp [SimOut.setT, upd2]
  · have h1 : ¬ (a = i ∧ b = j) := fun ⟨x, y⟩ => hab (by rw [x, y])
    have h2 : ¬ ((c.on (a, b)).1 = i' ∧ (c.on (a, b)).2 = j') := fun ⟨x, y⟩ =>
      hab (c.on_inj (by rw [e]; exact Prod.ext x y))
    simp only [SimOut.setT, upd2, h1, h2, if_false]
    exact h.terrain a b ha hb

theorem setBS (h : Like E c s s') {i j i' j' : ℤ} (e : c.on (i, j) = (i', j')) (k : ℕ) (v : F) :
    Like E c (s.setBS k i j v) (s'.setBS k i' j' v) := by
  refine ⟨h.grid, h.terrain, h.body, fun m a b ha hb => ?_, h.entries, h.equilibrium⟩
  have key : ((c.on (a, b)).1 = i' ∧ (c.on (a, b)).2 = j') ↔ (a = i ∧ b = j) := by
    constructor
    · rintro ⟨x, y⟩
      have := c.on_inj (p := (a, b)) (q := (i, j)) (by rw [e]; exact Prod.ext x y)
      exact Prod.mk.injEq .. ▸ this
    · rintro ⟨rfl, rfl⟩
      rw [e]
      exact ⟨rfl, rfl⟩
  simp only [SimOut.setBS, upd3, key]
  split
  · rfl
  · exact h.bodySoil m a b ha hb

theorem setB (h : Like E c s s') {i j i' j' : ℤ} (e : c.on (i, j) = (i', j')) (k : ℕ) (v : F) :
    Like E c (s.setB k i j v) (s'.setB k i' j' v) := by
  refine ⟨h.grid, h.terrain, fun m a b ha hb => ?_, h.bodySoil, h.entries, h.equilibrium⟩
  have key : ((c.on (a, b)).1 = i' ∧ (c.on (a, b)).2 = j') ↔ (a = i ∧ b = j) := by
    constructor
    · rintro ⟨x, y⟩
      have := c.on_inj (p := (a, b)) (q := (i, j)) (by rw [e]; exact Prod.ext x y)
      exact Prod.mk.injEq .. ▸ this
    · rintro ⟨rfl, rfl⟩
      rw [e]
      exact ⟨rfl, rfl⟩
  simp only [SimOut.setB, upd3, key]
  split
  · rfl
  · exact h.body m a b ha hb

theorem setH (h : Like E c s s') (n : ℕ) (v : F) : Like E c (s.setH n v) (s'.setH n v) := by
  refine ⟨h.grid, h.terrain, h.body, h.bodySoil, ?_, h.equilibrium⟩
  simp only [SimOut.setH, h.entries]
  apply List.ext_getElem?
  intro m
  simp only [List.getElem?_modify, List.getElem?_map]
  cases s.bodySoilPos[m]? with
  | none => rfl
  | some e => by_cases hm : n = m <;> simp [hm, Chart.entry]

theorem pushPos (h : Like E c s s') {e e' : BodySoil F} (he : e' = c.entry e) :
    Like E c (s.pushPos e) (s'.pushPos e') := by
  refine ⟨h.grid, h.terrain, h.body, h.bodySoil, ?_, h.equilibrium⟩
  simp only [SimOut.pushPos, h.entries, he, List.map_append, List.map_cons, List.map_nil]

theorem setEq (h : Like E c s s') (b : Bool) :
    Like E c { s with equilibrium := b } { s' with equilibrium := b } :=
  ⟨h.grid, h.terrain, h.body, h.bodySoil, h.entries, rfl⟩

theorem setRelax (h : Like E c s s') (a a' : Area) :
    Like E c { s with relaxArea := a } { s' with relaxArea := a' } :=
  ⟨h.grid, h.terrain, h.body, h.bodySoil, h.entries, h.equilibrium⟩

theorem setImpact (h : Like E c s s') (a a' : Area) :
    Like E c { s with impactArea := a } { s' with impactArea := a' } :=
  ⟨h.grid, h.terrain, h.body, h.bodySoil, h.entries, h.equilibrium⟩

theorem setBodyArea (h : Like E c s s') (a a' : Area) :
    Like E c { s with bodyArea := a } { s' with bodyArea := a' } :=
  ⟨h.grid, h.terrain, h.body, h.bodySoil, h.entries, h.equilibrium⟩

theorem grid' (h : Like E c s s') {i j i' j' : ℤ} (e : c.on (i, j) = (i', j')) (hi : s.InGrid i j) :
    s'.InGrid i' j' ∨ E := by
  have := h.grid i j hi
  rwa [e] at this

end Like

namespace SameCol

variable [FOps F] {s s' : SimOut F} {i j i' j' : ℤ}

theorem bodyAbs (h : SameCol s s' i j i' j') (k : ℕ) : s'.bodyAbs k i' j' = s.bodyAbs k i j := by
  simp only [SimOut.bodyAbs, h.body]

theorem soilPres (h : SameCol s s' i j i' j') (k : ℕ) : s'.soilPres k i' j' = s.soilPres k i j := by
  simp only [SimOut.soilPres, h.bodySoil]

end SameCol

/-! ## Lists and random streams -/

/-- corresponding lists: the same, or in any order if the axes are exchanged -/
def Chart.Lst (c : Chart) {α : Type} (l l' : List α) : Prop := if c.swap then l'.Perm l else l' = l

/-- corresponding random streams: the same, or any if the axes are exchanged -/
def Chart.Rn (c : Chart) (r q : Rng) : Prop := c.swap = false → q = r

theorem swapL_map {α β : Type} (f : α → β) (l : List α) (a b : ℕ) : swapL (l.map f) a b = (swapL l a b).map f := by
  unfold swapL
  simp only [List.getElem?_map]
  cases l[a]? with
  | none => rfl
  | some x =>
    cases l[b]? with
    | none => rfl
    | some y => simp

theorem shuffleFrom_map {α β : Type} (f : α → β) (n : ℕ) (l : List α) (r : Rng) :
    shuffleFrom n (l.map f) r = ((shuffleFrom n l r).1.map f, (shuffleFrom n l r).2) := by
  induction n generalizing l r with
  | zero => rfl
  | succ n ih =>
    simp only [shuffleFrom]
    rw [swapL_map]
    exact ih _ _

theorem shuffle_map {α β : Type} (f : α → β) (l : List α) (r : Rng) :
    shuffle (l.map f) r = ((shuffle l r).1.map f, (shuffle l r).2) := by
  unfold shuffle
  rw [List.length_map]
  exact shuffleFrom_map f _ l r

/-- the list and the tail of the stream depend on the first numbers only -/
theorem shuffleFrom_append {α : Type} (n : ℕ) (l : List α) (r q : Rng) :
    ∃ r', shuffleFrom n l r' = ((shuffleFrom n l r).1, q) := by
  induction n generalizing l r with
  | zero => exact ⟨q, rfl⟩
  | succ n ih =>
    obtain ⟨r', h⟩ := ih (swapL l (n + 1) (r 0 % (n + 1 + 1))) (fun n => r (n + 1))
    refine ⟨fun m => match m with
      | 0 => r 0
      | m + 1 => r' m, ?_⟩
    simp only [shuffleFrom, Rng.draw]
    exact h

theorem shuffle_like (c : Chart) {α β : Type} (f : α → β) (l : List α) (l' : List β) (hl : c.Lst (l.map f) l') (r q1 : Rng)
    (hq : c.Rn (shuffle l r).2 q1) : ∃ q, c.Rn r q ∧ shuffle l' q = ((shuffle l r).1.map f, q1) := by
  unfold Chart.Lst at hl
  cases hs : c.swap with
  | false =>
    rw [hs] at hl
    simp only [Bool.false_eq_true, if_false] at hl
    subst hl
    exact ⟨r, fun _ => rfl, by rw [shuffle_map, hq hs]⟩
  | true =>
    rw [hs, if_pos rfl] at hl
    have hp : l'.Perm ((shuffle l r).1.map f) := hl.trans ((shuffle_perm l r).symm.map f)
    obtain ⟨q0, h0⟩ := shuffle_surj l' _ hp
    obtain ⟨q, h⟩ := shuffleFrom_append (l'.length - 1) l' q0 q1
    refine ⟨q, fun h => absurd h (by rw [hs]; simp), ?_⟩
    unfold shuffle at h0 ⊢
    rw [h, h0]

theorem Chart.Lst.refl (c : Chart) {α : Type} (l : List α) : c.Lst l l := by
  unfold Chart.Lst
  split
  · exact List.Perm.refl l
  · rfl

theorem Chart.Rn.refl (c : Chart) (r : Rng) : c.Rn r r := fun _ => rfl

theorem Chart.dirs4 (c : Chart) : c.Lst (directions4.map c.lin) directions4 := by
  unfold Chart.Lst Chart.lin directions4
  split
  · decide
  · simp

theorem Chart.dirs8 (c : Chart) : c.Lst (directions8.map c.lin) directions8 := by
  unfold Chart.Lst Chart.lin directions8
  split
  · decide
  · simp

end Soil

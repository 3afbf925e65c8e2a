import Verif.Spec.Cells
import Verif.Model.SoilDynamics
import Verif.Proof.Basic

/-!
# Simulation between two arithmetics that are exact on whole numbers of cells

`V` relates two numbers that stand for the same number of cells, `Rep` two states whose heights are
related.  The functions of the model preserve the relations.
-/

set_option linter.unusedSectionVars false
set_option linter.unusedVariables false

namespace Soil

open FOps

variable {F G : Type} [FOps F] [FOps G] {cell tol : F} {cell' tol' : G} {N C : ℤ}

/-- The two arithmetics with the bound `H` on stored heights; intermediate results are at most
`16 * H`. -/
structure Pair (F G : Type) [FOps F] [FOps G] (cell tol : F) (cell' tol' : G) (N C : ℤ) where
  A : CellArith F cell tol N C
  B : CellArith G cell' tol' N C
  H : ℤ
  pos : 0 ≤ H
  le : 16 * H ≤ N

variable (P : Pair F G cell tol cell' tol' N C)

/-- `x` and `y` both stand for `n` cells, with `|n| ≤ d * H` -/
def V (d : ℕ) (x : F) (y : G) : Prop := ∃ n : ℤ, x = P.A.emb n ∧ y = P.B.emb n ∧ |n| ≤ d * P.H

variable {P}

theorem Pair.bound (P : Pair F G cell tol cell' tol' N C) {d : ℕ} (hd : d ≤ 16) {n : ℤ} (h : |n| ≤ d * P.H) : |n| ≤ N := by
  have h1 : (d : ℤ) * P.H ≤ 16 * P.H := mul_le_mul_of_nonneg_right (by exact_mod_cast hd) P.pos
  have := P.le
  omega

namespace V

variable {d e : ℕ} {x u : F} {y v : G}

theorem up (h : V P d x y) (hde : d ≤ e) : V P e x y := by
  obtain ⟨n, h1, h2, h3⟩ := h
  refine ⟨n, h1, h2, h3.trans ?_⟩
  exact mul_le_mul_of_nonneg_right (by exact_mod_cast hde) P.pos

theorem zero : V P d (FOps.zero : F) (FOps.zero : G) :=
  ⟨0, P.A.zero, P.B.zero, by rw [abs_zero]; exact mul_nonneg (by exact_mod_cast Nat.zero_le d) P.pos⟩

theorem add (h : V P d x y) (h' : V P e u v) (hd : d + e ≤ 16 := by decide) :
    V P (d + e) (x +ᶠ u) (y +ᶠ v) := by
  obtain ⟨n, rfl, rfl, h3⟩ := h
  obtain ⟨m, rfl, rfl, k3⟩ := h'
  have a := abs_add_le n m
  have hb : |n + m| ≤ ((d + e : ℕ) : ℤ) * P.H := by push_cast; rw [add_mul]; omega
  have b1 := P.bound (by omega : d ≤ 16) h3
  have b2 := P.bound (by omega : e ≤ 16) k3
  have b3 := P.bound hd hb
  exact ⟨n + m, P.A.add _ _ b1 b2 b3, P.B.add _ _ b1 b2 b3, hb⟩

theorem sub (h : V P d x y) (h' : V P e u v) (hd : d + e ≤ 16 := by decide) :
    V P (d + e) (x -ᶠ u) (y -ᶠ v) := by
  obtain ⟨n, rfl, rfl, h3⟩ := h
  obtain ⟨m, rfl, rfl, k3⟩ := h'
  have a := abs_sub n m
  have hb : |n - m| ≤ ((d + e : ℕ) : ℤ) * P.H := by push_cast; rw [add_mul]; omega
  have b1 := P.bound (by omega : d ≤ 16) h3
  have b2 := P.bound (by omega : e ≤ 16) k3
  have b3 := P.bound hd hb
  exact ⟨n - m, P.A.sub _ _ b1 b2 b3, P.B.sub _ _ b1 b2 b3, hb⟩

theorem abs (h : V P d x y) (hd : d ≤ 16 := by decide) : V P d (FOps.abs x) (FOps.abs y) := by
  obtain ⟨n, rfl, rfl, h3⟩ := h
  have b := P.bound hd h3
  exact ⟨|n|, P.A.abs _ b, P.B.abs _ b, by rwa [abs_abs]⟩

section cmp

variable (h : V P d x y) (h' : V P e u v) (hd : d ≤ 16 := by decide) (he : e ≤ 16 := by decide)

include h h' hd he

theorem lt : (x <ᶠ u) = (y <ᶠ v) := by
  obtain ⟨n, rfl, rfl, h3⟩ := h
  obtain ⟨m, rfl, rfl, k3⟩ := h'
  rw [P.A.lt _ _ (P.bound hd h3) (P.bound he k3), P.B.lt _ _ (P.bound hd h3) (P.bound he k3)]

theorem eq : FOps.eq x u = FOps.eq y v := by
  obtain ⟨n, rfl, rfl, h3⟩ := h
  obtain ⟨m, rfl, rfl, k3⟩ := h'
  rw [P.A.eq _ _ (P.bound hd h3) (P.bound he k3), P.B.eq _ _ (P.bound hd h3) (P.bound he k3)]

theorem ne : FOps.ne x u = FOps.ne y v := by
  unfold FOps.ne
  rw [eq h h' hd he]

theorem addTol_lt : (x +ᶠ tol <ᶠ u) = (y +ᶠ tol' <ᶠ v) := by
  obtain ⟨n, rfl, rfl, h3⟩ := h
  obtain ⟨m, rfl, rfl, k3⟩ := h'
  rw [P.A.addTol_lt _ _ (P.bound hd h3) (P.bound he k3), P.B.addTol_lt _ _ (P.bound hd h3) (P.bound he k3)]

theorem lt_addTol : (x <ᶠ u +ᶠ tol) = (y <ᶠ v +ᶠ tol') := by
  obtain ⟨n, rfl, rfl, h3⟩ := h
  obtain ⟨m, rfl, rfl, k3⟩ := h'
  rw [P.A.lt_addTol _ _ (P.bound hd h3) (P.bound he k3), P.B.lt_addTol _ _ (P.bound hd h3) (P.bound he k3)]

theorem lt_subTol : (x <ᶠ u -ᶠ tol) = (y <ᶠ v -ᶠ tol') := by
  obtain ⟨n, rfl, rfl, h3⟩ := h
  obtain ⟨m, rfl, rfl, k3⟩ := h'
  rw [P.A.lt_subTol _ _ (P.bound hd h3) (P.bound he k3), P.B.lt_subTol _ _ (P.bound hd h3) (P.bound he k3)]

theorem subTol_lt : (x -ᶠ tol <ᶠ u) = (y -ᶠ tol' <ᶠ v) := by
  obtain ⟨n, rfl, rfl, h3⟩ := h
  obtain ⟨m, rfl, rfl, k3⟩ := h'
  rw [P.A.subTol_lt _ _ (P.bound hd h3) (P.bound he k3), P.B.subTol_lt _ _ (P.bound hd h3) (P.bound he k3)]

end cmp

theorem tol_lt (h : V P d x y) (hd : d ≤ 16 := by decide) : (tol <ᶠ x) = (tol' <ᶠ y) := by
  obtain ⟨n, rfl, rfl, h3⟩ := h
  rw [P.A.tol_lt _ (P.bound hd h3), P.B.tol_lt _ (P.bound hd h3)]

theorem lt_tol (h : V P d x y) (hd : d ≤ 16 := by decide) : (x <ᶠ tol) = (y <ᶠ tol') := by
  obtain ⟨n, rfl, rfl, h3⟩ := h
  rw [P.A.lt_tol _ (P.bound hd h3), P.B.lt_tol _ (P.bound hd h3)]

theorem small (h : V P d x y) (hd : d ≤ 16 := by decide) :
    (x <ᶠ ofRat (9 / 10) *ᶠ cell) = (y <ᶠ ofRat (9 / 10) *ᶠ cell') := by
  obtain ⟨n, rfl, rfl, h3⟩ := h
  rw [P.A.small _ (P.bound hd h3), P.B.small _ (P.bound hd h3)]

theorem round (h : V P d x y) (hd : d ≤ 16 := by decide) :
    V P d (cell *ᶠ FOps.round (x /ᶠ cell)) (cell' *ᶠ FOps.round (y /ᶠ cell')) := by
  obtain ⟨n, rfl, rfl, h3⟩ := h
  exact ⟨n, P.A.round _ (P.bound hd h3), P.B.round _ (P.bound hd h3), h3⟩

theorem half (h : V P d x y) (hd : d ≤ 16 := by decide) :
    V P d (cell *ᶠ FOps.floor ((ofRat (1 / 2) *ᶠ x +ᶠ tol) /ᶠ cell))
      (cell' *ᶠ FOps.floor ((ofRat (1 / 2) *ᶠ y +ᶠ tol') /ᶠ cell')) := by
  obtain ⟨n, rfl, rfl, h3⟩ := h
  refine ⟨n / 2, P.A.half _ (P.bound hd h3), P.B.half _ (P.bound hd h3), le_trans ?_ h3⟩
  rcases abs_cases n with ⟨a, _⟩ | ⟨a, _⟩ <;> rcases abs_cases (n / 2) with ⟨b, _⟩ | ⟨b, _⟩ <;> omega

theorem max (h : V P d x y) (h' : V P e u v) (hd : d ≤ 16 := by decide) (he : e ≤ 16 := by decide)
    {f : ℕ} (hf : d ≤ f := by decide) (hf' : e ≤ f := by decide) :
    V P f (FOps.max x u) (FOps.max y v) := by
  unfold FOps.max
  rw [h.lt h' hd he]
  split
  · exact h'.up hf'
  · exact h.up hf

theorem min (h : V P d x y) (h' : V P e u v) (hd : d ≤ 16 := by decide) (he : e ≤ 16 := by decide)
    {f : ℕ} (hf : d ≤ f := by decide) (hf' : e ≤ f := by decide) :
    V P f (FOps.min x u) (FOps.min y v) := by
  unfold FOps.min
  rw [h'.lt h he hd]
  split
  · exact h'.up hf'
  · exact h.up hf

theorem ite {b b' : Bool} (hb : b = b') (h : V P d x y) (h' : V P e u v) {f : ℕ}
    (hf : d ≤ f := by decide) (hf' : e ≤ f := by decide) :
    V P f (if b then x else u) (if b' then y else v) := by
  subst hb
  split
  · exact h.up hf
  · exact h'.up hf'

end V

variable (P)

/-- Two bookkeeping entries: same place, same amount; the position in the body frame is free. -/
def ERep (d : ℕ) (e : BodySoil F) (f : BodySoil G) : Prop :=
  e.ind = f.ind ∧ e.ii = f.ii ∧ e.jj = f.jj ∧ V P d e.h f.h

/-- Two states with the same heights in cells -/
structure Rep (d : ℕ) (s : SimOut F) (z : SimOut G) : Prop where
  lenX : s.lenX = z.lenX
  lenY : s.lenY = z.lenY
  equilibrium : s.equilibrium = z.equilibrium
  bodyArea : s.bodyArea = z.bodyArea
  relaxArea : s.relaxArea = z.relaxArea
  impactArea : s.impactArea = z.impactArea
  T : ∀ i j, z.InGrid i j → V P d (s.terrain i j) (z.terrain i j)
  B : ∀ k i j, z.InGrid i j → k < 4 → V P d (s.body k i j) (z.body k i j)
  S : ∀ k i j, z.InGrid i j → k < 4 → V P d (s.bodySoil k i j) (z.bodySoil k i j)
  E : List.Forall₂ (ERep P d) s.bodySoilPos z.bodySoilPos

variable {P}

theorem ERep.up {d e : ℕ} {a : BodySoil F} {b : BodySoil G} (h : ERep P d a b) (hde : d ≤ e) :
    ERep P e a b := ⟨h.1, h.2.1, h.2.2.1, h.2.2.2.up hde⟩

namespace Rep

variable {d e : ℕ} {s : SimOut F} {z : SimOut G}

theorem up (h : Rep P d s z) (hde : d ≤ e) : Rep P e s z :=
  ⟨h.lenX, h.lenY, h.equilibrium, h.bodyArea, h.relaxArea, h.impactArea,
    fun i j hij => (h.T i j hij).up hde, fun k i j hij hk => (h.B k i j hij hk).up hde,
    fun k i j hij hk => (h.S k i j hij hk).up hde, h.E.imp fun _ _ x => x.up hde⟩

theorem inGrid (h : Rep P d s z) (i j : ℤ) : s.InGrid i j ↔ z.InGrid i j := by
  unfold SimOut.InGrid; rw [h.lenX, h.lenY]

theorem setT (h : Rep P d s z) (i j : ℤ) {x : F} {y : G} (hv : V P d x y) :
    Rep P d (s.setT i j x) (z.setT i j y) := by
  refine ⟨h.lenX, h.lenY, h.equilibrium, h.bodyArea, h.relaxArea, h.impactArea, ?_, h.B, h.S, h.E⟩
  intro a b hab
  unfold SimOut.setT upd2
  dsimp only
  split_ifs
  · exact hv
  · exact h.T a b hab

theorem setB (h : Rep P d s z) (k : ℕ) (i j : ℤ) {x : F} {y : G} (hv : V P d x y) :
    Rep P d (s.setB k i j x) (z.setB k i j y) := by
  refine ⟨h.lenX, h.lenY, h.equilibrium, h.bodyArea, h.relaxArea, h.impactArea, h.T, ?_, h.S, h.E⟩
  intro c a b hab hc
  unfold SimOut.setB upd3
  dsimp only
  split_ifs
  · exact hv
  · exact h.B c a b hab hc

theorem setBS (h : Rep P d s z) (k : ℕ) (i j : ℤ) {x : F} {y : G} (hv : V P d x y) :
    Rep P d (s.setBS k i j x) (z.setBS k i j y) := by
  refine ⟨h.lenX, h.lenY, h.equilibrium, h.bodyArea, h.relaxArea, h.impactArea, h.T, h.B, ?_, h.E⟩
  intro c a b hab hc
  unfold SimOut.setBS upd3
  dsimp only
  split_ifs
  · exact hv
  · exact h.S c a b hab hc

theorem pushPos (h : Rep P d s z) {a : BodySoil F} {b : BodySoil G} (hv : ERep P d a b) :
    Rep P d (s.pushPos a) (z.pushPos b) :=
  ⟨h.lenX, h.lenY, h.equilibrium, h.bodyArea, h.relaxArea, h.impactArea, h.T, h.B, h.S,
    List.rel_append h.E (.cons hv .nil)⟩

theorem setPos (h : Rep P d s z) {l : List (BodySoil F)} {m : List (BodySoil G)}
    (hv : List.Forall₂ (ERep P d) l m) :
    Rep P d { s with bodySoilPos := l } { z with bodySoilPos := m } :=
  ⟨h.lenX, h.lenY, h.equilibrium, h.bodyArea, h.relaxArea, h.impactArea, h.T, h.B, h.S, hv⟩

theorem setEq (h : Rep P d s z) (v : Bool) :
    Rep P d { s with equilibrium := v } { z with equilibrium := v } :=
  ⟨h.lenX, h.lenY, rfl, h.bodyArea, h.relaxArea, h.impactArea, h.T, h.B, h.S, h.E⟩

theorem setH (h : Rep P d s z) (n : ℕ) {x : F} {y : G} (hv : V P d x y) :
    Rep P d (s.setH n x) (z.setH n y) := by
  refine ⟨h.lenX, h.lenY, h.equilibrium, h.bodyArea, h.relaxArea, h.impactArea, h.T, h.B, h.S, ?_⟩
  unfold SimOut.setH
  dsimp only
  have := h.E
  generalize s.bodySoilPos = l at this ⊢
  generalize z.bodySoilPos = m at this ⊢
  induction this generalizing n with
  | nil => simp
  | cons hab hl ih =>
    cases n with
    | zero =>
      simp only [List.modify_zero_cons]
      exact .cons ⟨hab.1, hab.2.1, hab.2.2.1, hv⟩ hl
    | succ n =>
      simp only [List.modify_succ_cons]
      exact .cons hab (ih n)

theorem entryH (h : Rep P d s z) (n : ℕ) : V P d (s.entryH n) (z.entryH n) := by
  unfold SimOut.entryH
  have := h.E
  generalize s.bodySoilPos = l at this ⊢
  generalize z.bodySoilPos = m at this ⊢
  induction this generalizing n with
  | nil => simpa using V.zero
  | cons hab hl ih =>
    cases n with
    | zero => simpa using hab.2.2.2
    | succ n => simpa using ih n

theorem ite {b b' : Bool} (hb : b = b') {s' : SimOut F} {z' : SimOut G} (h : Rep P d s z)
    (h' : Rep P d s' z') : Rep P d (if b then s else s') (if b' then z else z') := by
  subst hb
  split
  · exact h
  · exact h'

theorem bodyAbs (h : Rep P d s z) {k : ℕ} {i j : ℤ} (hij : z.InGrid i j) (hk : k + 1 < 4)
    (hd : d ≤ 16 := by decide) : s.bodyAbs k i j = z.bodyAbs k i j := by
  unfold SimOut.bodyAbs
  rw [(h.B k i j hij (by omega)).eq (V.zero (d := d)) hd hd,
    (h.B (k + 1) i j hij hk).eq (V.zero (d := d)) hd hd]

theorem soilPres (h : Rep P d s z) {k : ℕ} {i j : ℤ} (hij : z.InGrid i j) (hk : k + 1 < 4)
    (hd : d ≤ 16 := by decide) : s.soilPres k i j = z.soilPres k i j := by
  unfold SimOut.soilPres
  rw [(h.S k i j hij (by omega)).ne (V.zero (d := d)) hd hd,
    (h.S (k + 1) i j hij hk).ne (V.zero (d := d)) hd hd]

end Rep

/-! ## Calls -/

/-- Both calls return related results, or fail in the same way -/
def Sim {α β : Type} (x : M α) (y : M β) (R : α → β → Prop) : Prop :=
  match x, y with
  | .ok a, .ok b => R a b
  | .error e, .error e' => e = e'
  | _, _ => False

namespace Sim

variable {α β γ δ : Type} {x : M α} {y : M β} {R : α → β → Prop} {Q : γ → δ → Prop}

theorem ok {a : α} {b : β} (h : R a b) : Sim (.ok a) (.ok b) R := h

theorem error {e : Err} : Sim (.error e : M α) (.error e : M β) R := rfl

theorem mono (h : Sim x y R) {R' : α → β → Prop} (hR : ∀ a b, x = .ok a → y = .ok b → R a b → R' a b) :
    Sim x y R' := by
  cases x <;> cases y <;> simp_all [Sim]

theorem bind (h : Sim x y R) {f : α → M γ} {g : β → M δ}
    (hf : ∀ a b, x = .ok a → y = .ok b → R a b → Sim (f a) (g b) Q) : Sim (x >>= f) (y >>= g) Q := by
  cases x <;> cases y
  · exact h
  · exact h.elim
  · exact h.elim
  · exact hf _ _ rfl rfl h

theorem guard {p p' : Prop} [Decidable p] [Decidable p'] (hp : p ↔ p') {f : Unit → M γ}
    {g : Unit → M δ} (hf : p' → Sim (f ()) (g ()) Q) : Sim (guardOob p >>= f) (guardOob p' >>= g) Q := by
  unfold guardOob
  by_cases h : p'
  · rw [if_pos (hp.mpr h), if_pos h]; exact hf h
  · rw [if_neg (fun h' => h (hp.mp h')), if_neg h]; exact error

theorem of_ok (h : Sim x y R) {a : α} (hx : x = .ok a) : ∃ b, y = .ok b ∧ R a b := by
  subst hx
  cases y
  · exact h.elim
  · exact ⟨_, rfl, h⟩

theorem of_ok' (h : Sim x y R) {b : β} (hy : y = .ok b) : ∃ a, x = .ok a ∧ R a b := by
  subst hy
  cases x
  · exact h.elim
  · exact ⟨_, rfl, h⟩

end Sim

end Soil

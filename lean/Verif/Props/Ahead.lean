import Verif.Proof.Ahead
import Verif.Proof.Example

/-! # Property C68: soil on a moving body looks for its place in the direction of the movement -/

set_option linter.unusedSectionVars false

namespace Soil

variable {K : Type} [Field K] [LinearOrder K] [FloorRing K] [Transc K] [IsStrictOrderedRing K]

/-- **C68**. Let `UpdateBodySoil` move the soil on the body from the pose of `body` to the pose `(pos, ori)`.  Every record of soil
afterwards comes from a record before with the same coordinates in the frame of the body, and its column was chosen with preference for
the direction in which this point of the body has moved (translation and rotation together): see `Ahead`. -/
theorem C68_ahead (pos : Vec3 K) (ori : Quat K) (g : Grid K) (body body' : Body K) (tol : K) (w w' : World K)
    (h : updateBodySoil pos ori g body tol w = .ok (w', body')) :
    ∀ e' ∈ w'.out.bodySoilPos, ∃ e ∈ w.out.bodySoilPos, SameFrame e e' ∧
      Ahead g tol w.out (movedTo body.pos body.ori e) (movedTo pos ori e) e'.ii e'.jj := by
  unfold updateBodySoil at h
  dsimp only at h
  obtain ⟨s1, h1, h⟩ := bind_eq_ok.mp h
  obtain ⟨w1, h2, h⟩ := bind_eq_ok.mp h
  obtain ⟨rfl, -⟩ : w1 = w' ∧ _ := by
    have : (Except.ok (w1, ({ body with pos := pos, ori := ori } : Body K)) : M _) = .ok (w', body') := h
    simpa using this
  intro e' he'
  rcases (updateEntries_ahead h2).2 e' he' with he | ⟨e, he, hf, ha⟩
  · exact absurd he List.not_mem_nil
  · exact ⟨e, he, hf, Ahead.congr (s := { s1 with bodySoilPos := [] }) (resetBodySoil_body h1).symm ha⟩

/-- **C68** (two walls). If a body layer is reachable straight ahead of the moved point and its own column has none, the soil is
put ahead. -/
theorem C68_forward (pos : Vec3 K) (ori : Quat K) (g : Grid K) (body body' : Body K) (tol : K) (w w' : World K) (e0 : BodySoil K)
    (he0 : w.out.bodySoilPos = [e0]) (h : updateBodySoil pos ori g body tol w = .ok (w', body'))
    (main : |(movedTo pos ori e0).y - (movedTo body.pos body.ori e0).y| < |(movedTo pos ori e0).x - (movedTo body.pos body.ori e0).x|)
    (a : ℤ) (ha : |a| ≤ 1) (fwd : 0 < (a : K) * ((movedTo pos ori e0).x - (movedTo body.pos body.ori e0).x))
    (own : ∀ k, k = 0 ∨ k = 2 → ¬ HasBody w.out k (colX g (movedTo pos ori e0)) (colY g (movedTo pos ori e0)))
    (wall : WallNear g tol w.out (movedTo pos ori e0).z (colX g (movedTo pos ori e0) + a) (colY g (movedTo pos ori e0))) :
    ∀ e' ∈ w'.out.bodySoilPos, e'.ii = colX g (movedTo pos ori e0) + a ∧ e'.jj = colY g (movedTo pos ori e0) := by
  intro e' he'
  obtain ⟨e, he, -, hA⟩ := C68_ahead pos ori g body body' tol w w' h e' he'
  rw [he0, List.mem_singleton] at he
  subst he
  by_contra hn
  refine hA.straightX main ?_ a ha fwd ?_ wall
  · intro e1
    obtain ⟨k, hk, hb⟩ := hA.present
    simp only [Prod.mk.injEq] at e1
    rw [e1.1, e1.2] at hb
    exact own k hk hb
  · intro e1
    simp only [Prod.mk.injEq] at e1
    exact hn e1

/-! ## A concrete case -/

/-- two walls, in columns (1, 2) and (3, 2), and one cell of soil on the first -/
def ahdWorld : World ℚ :=
  { exWorld with out := { exState with
      terrain := fun _ _ => 0
      body := fun k i j => if (i = 1 ∨ i = 3) ∧ j = 2 then (if k = 0 then 1 else if k = 1 then 2 else 0) else 0
      bodySoil := fun k i j => if i = 1 ∧ j = 2 then (if k = 0 then 2 else if k = 1 then 3 else 0) else 0
      bodySoilPos := [⟨0, 1, 2, 0, 0, 0, 1⟩] } }

/-- A point between the walls goes to the wall ahead, whichever way the body moves. -/
example : (match updateBodySoil ⟨1 / 4, 0, 2⟩ ⟨1, 0, 0, 0⟩ exGrid { exBody with pos := ⟨-1 / 4, 0, 2⟩ } (1 / 100) ahdWorld,
      updateBodySoil ⟨-1 / 4, 0, 2⟩ ⟨1, 0, 0, 0⟩ exGrid { exBody with pos := ⟨1 / 4, 0, 2⟩ } (1 / 100) ahdWorld with
    | .ok (w1, _), .ok (w2, _) => decide (w1.out.bodySoilPos = [⟨0, 3, 2, 0, 0, 0, 1⟩] ∧ w2.out.bodySoilPos = [⟨0, 1, 2, 0, 0, 0, 1⟩])
    | _, _ => false) = true := by decide +kernel

/-- The hypotheses of `C68_forward` hold for the first of these movements. -/
example : |(movedTo ⟨1 / 4, 0, 2⟩ ⟨1, 0, 0, 0⟩ (⟨0, 1, 2, 0, 0, 0, 1⟩ : BodySoil ℚ)).y - (movedTo ⟨-1 / 4, 0, 2⟩ ⟨1, 0, 0, 0⟩ (⟨0, 1, 2, 0, 0, 0, 1⟩ : BodySoil ℚ)).y| <
      |(movedTo ⟨1 / 4, 0, 2⟩ ⟨1, 0, 0, 0⟩ (⟨0, 1, 2, 0, 0, 0, 1⟩ : BodySoil ℚ)).x - (movedTo ⟨-1 / 4, 0, 2⟩ ⟨1, 0, 0, 0⟩ (⟨0, 1, 2, 0, 0, 0, 1⟩ : BodySoil ℚ)).x| ∧
    (∀ k, k = 0 ∨ k = 2 → ¬ HasBody ahdWorld.out k 2 2) ∧ WallNear exGrid (1 / 100) ahdWorld.out 2 3 2 := by
  refine ⟨by decide +kernel, ?_, 0, .inl rfl, by decide +kernel, by decide +kernel⟩
  rintro k (rfl | rfl) <;> decide +kernel

end Soil

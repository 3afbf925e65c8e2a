import Verif.Proof.Frame
import Verif.Proof.Fuel

/-! # Properties C12, C19, C40: what a step does at top level (any arithmetic)

Cases in which the hypotheses hold, with and without an update, are in `Verif.Props.Cases`. -/

set_option linter.unusedSectionVars false

namespace Soil

variable {F : Type} [FOps F]

/-- **C12**. A step that returns false leaves the whole simulation state, the generator, the log and
the body exactly as they were; a step that returns true stores the requested pose and leaves the
rest of the body as it was. -/
theorem C12_step (fuel : ℕ) (pos : Vec3 F) (ori : Quat F) (g : Grid F) (body : Body F)
    (p : SimParam F) (tol : F) (w : World F) (r : StepResult F)
    (h : step fuel pos ori g body p tol w = .ok r) :
    (r.updated = false → r.world = w ∧ r.body = body) ∧
    (r.updated = true → r.body = { body with pos := pos, ori := ori }) := by
  unfold step at h
  rcases hc : checkBodyMovement pos ori g body with ⟨moved, warns⟩
  rw [hc] at h
  dsimp only at h
  cases moved with
  | false =>
    have hw : warns = [] := by
      unfold checkBodyMovement at hc
      dsimp only at hc
      split_ifs at hc <;> simp_all
    subst hw
    simp only [Bool.not_false, if_true, pure_eq_ok, Except.ok.injEq] at h
    subst h
    simp
  | true =>
    simp only [Bool.not_true, Bool.false_eq_true, if_false] at h
    obtain ⟨s, hs, h⟩ := bind_eq_ok.mp h
    obtain ⟨⟨w1, b1⟩, h1, h⟩ := bind_eq_ok.mp h
    obtain ⟨w2, h2, h⟩ := bind_eq_ok.mp h
    obtain ⟨⟨w3, it⟩, h3, h⟩ := bind_eq_ok.mp h
    have hb := (updateBodySoil_loc _ _ _ _ _ _ _ h1).2.2
    simp only [pure_eq_ok, Except.ok.injEq] at h
    subst h
    exact ⟨fun h => by simp at h, fun _ => hb⟩

/-- **C12**. Whether a step updates is decided by the movement check alone. -/
theorem C12_updated_iff (fuel : ℕ) (pos : Vec3 F) (ori : Quat F) (g : Grid F) (body : Body F)
    (p : SimParam F) (tol : F) (w : World F) (r : StepResult F)
    (h : step fuel pos ori g body p tol w = .ok r) :
    r.updated = (checkBodyMovement pos ori g body).1 := by
  unfold step at h
  rcases hc : checkBodyMovement pos ori g body with ⟨moved, warns⟩
  rw [hc] at h
  dsimp only at h
  cases moved with
  | false =>
    simp only [Bool.not_false, if_true, pure_eq_ok, Except.ok.injEq] at h
    subst h; rfl
  | true =>
    simp only [Bool.not_true, Bool.false_eq_true, if_false] at h
    obtain ⟨s, hs, h⟩ := bind_eq_ok.mp h
    obtain ⟨⟨w1, b1⟩, h1, h⟩ := bind_eq_ok.mp h
    obtain ⟨w2, h2, h⟩ := bind_eq_ok.mp h
    obtain ⟨⟨w3, it⟩, h3, h⟩ := bind_eq_ok.mp h
    simp only [pure_eq_ok, Except.ok.injEq] at h
    subst h; rfl

/-- **C19**. Terrain relaxation does not move the body. -/
theorem C19_relaxTerrain (g : Grid F) (body : Body F) (p : SimParam F) (tol : F) (w w' : World F)
    (h : relaxTerrain g body p tol w = .ok w') : SameBody w.out w'.out :=
  (relaxTerrain_frame g body p tol w w' h).1

/-- **C19**. Body-soil relaxation does not move the body. -/
theorem C19_relaxBodySoil (g : Grid F) (body : Body F) (p : SimParam F) (tol : F) (w w' : World F)
    (h : relaxBodySoil g body p tol w = .ok w') : SameBody w.out w'.out :=
  (relaxBodySoil_frame g body p tol w w' h).1

/-- **C19**. The whole relaxation loop does not move the body. -/
theorem C19_relaxLoop (g : Grid F) (body : Body F) (p : SimParam F) (tol : F) (fuel : ℕ) (it : ℤ)
    (w : World F) (x : World F × ℤ) (h : relaxLoop g body p tol fuel it w = .ok x) :
    SameBody w.out x.1.out :=
  (relaxLoop_frame g body p tol fuel it w x h).1

/-- **C19**. Resolving intersections does not move the body. -/
theorem C19_moveIntersectingCells (fuel : ℕ) (g : Grid F) (body : Body F) (tol : F)
    (w w' : World F) (h : moveIntersectingCells fuel g body tol w = .ok w') :
    SameBody w.out w'.out :=
  (moveIntersectingCells_loc fuel g body tol w w' h).body

/-- **C19**. Transporting the body soil does not move the body. -/
theorem C19_updateBodySoil (pos : Vec3 F) (ori : Quat F) (g : Grid F) (body : Body F) (tol : F)
    (w : World F) (x : World F × Body F) (h : updateBodySoil pos ori g body tol w = .ok x) :
    SameBody w.out x.1.out :=
  (updateBodySoil_loc pos ori g body tol w x h).1.body

/-- **C19**. After a step that updates, the body layers and the active body area are those computed
by `CalcBodyPos`: nothing that happens to the soil later in the step changes them. -/
theorem C19_step (fuel : ℕ) (pos : Vec3 F) (ori : Quat F) (g : Grid F) (body : Body F)
    (p : SimParam F) (tol : F) (w : World F) (r : StepResult F)
    (h : step fuel pos ori g body p tol w = .ok r) (hu : r.updated = true) :
    ∃ s, calcBodyPos fuel w.out pos ori g body p tol = .ok s ∧ SameBody s r.world.out := by
  unfold step at h
  rcases hc : checkBodyMovement pos ori g body with ⟨moved, warns⟩
  rw [hc] at h
  dsimp only at h
  cases moved with
  | false =>
    simp only [Bool.not_false, if_true, pure_eq_ok, Except.ok.injEq] at h
    subst h; simp at hu
  | true =>
    simp only [Bool.not_true, Bool.false_eq_true, if_false] at h
    obtain ⟨s, hs, h⟩ := bind_eq_ok.mp h
    obtain ⟨⟨w1, b1⟩, h1, h⟩ := bind_eq_ok.mp h
    obtain ⟨w2, h2, h⟩ := bind_eq_ok.mp h
    obtain ⟨⟨w3, it⟩, h3, h⟩ := bind_eq_ok.mp h
    simp only [pure_eq_ok, Except.ok.injEq] at h
    subst h
    refine ⟨s, hs, ?_⟩
    have a1 := C19_updateBodySoil _ _ _ _ _ _ _ h1
    have a2 := C19_moveIntersectingCells _ _ _ _ _ _ h2
    have a3 := C19_relaxLoop _ _ _ _ _ _ _ _ h3
    exact (a1.trans a2).trans (SameBody.trans ⟨rfl, rfl, rfl, rfl⟩ a3)

/-! ## C40 -/

/-- `n` rounds of relaxation lead from `w` to `w'`, with the flag unset before each round -/
inductive Rounds (g : Grid F) (body : Body F) (p : SimParam F) (tol : F) :
    ℕ → World F → World F → Prop
  | zero (w) : Rounds g body p tol 0 w w
  | succ {n w w1 w2} : w.out.equilibrium = false → relaxOnce g body p tol w = .ok w1 →
      Rounds g body p tol n w1 w2 → Rounds g body p tol (n + 1) w w2

theorem relaxLoop_rounds (g : Grid F) (body : Body F) (p : SimParam F) (tol : F) (fuel : ℕ)
    (it : ℤ) (w : World F) (x : World F × ℤ) (h : relaxLoop g body p tol fuel it w = .ok x) :
    ∃ n : ℕ, x.2 = it + n ∧ Rounds g body p tol n w x.1 ∧ (0 < n → it + n ≤ p.maxIterations) ∧
      (x.1.out.equilibrium = true ∨ p.maxIterations ≤ x.2) := by
  induction fuel generalizing it w with
  | zero =>
    unfold relaxLoop at h
    split_ifs at h with hc
    cases h
    refine ⟨0, by simp, .zero _, by simp, ?_⟩
    cases he : w.out.equilibrium with
    | true => exact .inl rfl
    | false => simp [he] at hc; exact .inr hc
  | succ n ih =>
    unfold relaxLoop at h
    split_ifs at h with hc
    · dsimp only at h
      obtain ⟨w1, h1, h2⟩ := bind_eq_ok.mp h
      obtain ⟨m, e1, e2, e3, e4⟩ := ih _ _ h2
      simp only [Bool.and_eq_true, Bool.not_eq_true', decide_eq_true_eq] at hc
      refine ⟨m + 1, by push_cast; omega, .succ hc.1 h1 e2, ?_, e4⟩
      intro _
      rcases Nat.eq_zero_or_pos m with rfl | hm
      · have := hc.2; push_cast; omega
      · have := e3 hm; push_cast; omega
    · cases h
      refine ⟨0, by simp, .zero _, by simp, ?_⟩
      cases he : w.out.equilibrium with
      | true => exact .inl rfl
      | false => simp [he] at hc; exact .inr hc

/-- **C40**. A step that updates performs a number of relaxation rounds between zero and the
configured maximum, stops before the maximum only when the flag is set, and with a maximum of zero
never reports equilibrium. The number reported by the model is the number of rounds performed. -/
theorem C40_rounds (fuel : ℕ) (pos : Vec3 F) (ori : Quat F) (g : Grid F) (body : Body F)
    (p : SimParam F) (tol : F) (w : World F) (r : StepResult F) (hp : 0 ≤ p.maxIterations)
    (h : step fuel pos ori g body p tol w = .ok r) (hu : r.updated = true) :
    ∃ (n : ℕ) (w0 : World F), r.passes = n ∧ w0.out.equilibrium = false ∧
      Rounds g r.body p tol n w0 r.world ∧ n ≤ p.maxIterations ∧
      (n < p.maxIterations → r.world.out.equilibrium = true) ∧
      (p.maxIterations = 0 → r.world.out.equilibrium = false) := by
  unfold step at h
  rcases hc : checkBodyMovement pos ori g body with ⟨moved, warns⟩
  rw [hc] at h
  dsimp only at h
  cases moved with
  | false =>
    simp only [Bool.not_false, if_true, pure_eq_ok, Except.ok.injEq] at h
    subst h; simp at hu
  | true =>
    simp only [Bool.not_true, Bool.false_eq_true, if_false] at h
    obtain ⟨s, hs, h⟩ := bind_eq_ok.mp h
    obtain ⟨⟨w1, b1⟩, h1, h⟩ := bind_eq_ok.mp h
    obtain ⟨w2, h2, h⟩ := bind_eq_ok.mp h
    obtain ⟨⟨w3, it⟩, h3, h⟩ := bind_eq_ok.mp h
    simp only [pure_eq_ok, Except.ok.injEq] at h
    subst h
    obtain ⟨n, e1, e2, e3, e4⟩ := relaxLoop_rounds _ _ _ _ _ _ _ _ h3
    dsimp only at e1 e2 e4 ⊢
    refine ⟨n, _, by omega, ?_, e2, ?_, ?_, ?_⟩
    · rfl
    · rcases Nat.eq_zero_or_pos n with rfl | hn
      · simpa using hp
      · have := e3 hn; omega
    · intro hlt
      rcases e4 with h | h
      · exact h
      · omega
    · intro h0
      rcases Nat.eq_zero_or_pos n with rfl | hn
      · cases e2; rfl
      · have := e3 hn; omega

/-- **C40**. The relaxation loop of a step never runs out of fuel when the fuel is at least the
configured number of rounds: whatever the state, it ends after at most that many rounds. -/
theorem C40_terminates (g : Grid F) (body : Body F) (p : SimParam F) (tol : F) (fuel : ℕ) (it : ℤ)
    (w : World F) (hf : p.maxIterations - it ≤ fuel) :
    relaxLoop g body p tol fuel it w ≠ .error .fuel := by
  induction fuel generalizing it w with
  | zero =>
    unfold relaxLoop
    split_ifs with hc
    · simp only [Bool.and_eq_true, decide_eq_true_eq] at hc
      omega
    · simp
  | succ n ih =>
    unfold relaxLoop
    split_ifs with hc
    · dsimp only
      refine NoFuel.bind (relaxOnce_noFuel g body p tol w) fun w1 => ?_
      exact ih (it + 1) w1 (by push_cast at hf; omega)
    · simp

end Soil

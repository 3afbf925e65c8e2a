import Verif.Proof.Opening
import Verif.Proof.History
import Verif.Proof.Example

/-! # C46: soil leaves the gap between two body layers through openings only -/

set_option linter.unusedSectionVars false

namespace Soil

section

variable {K : Type} [Field K] [LinearOrder K] [FloorRing K] [Transc K] [IsStrictOrderedRing K]

/-- **C46**, openings. A column that receives soil when body soil is pushed out of the body lies at the
end of a straight corridor of columns with a gap between two body layers, and is not a wall that closes
the last gap of the corridor. -/
theorem C46_open (fuel : ℕ) (g : Grid K) (body : Body K) (c tol : K) (w w' : World K) (htol : 0 < tol)
    (htol' : 2 * tol < c) (hB : BodyOK c w.out) (hS : SoilOK c w.out)
    (h : moveIntersectingBodySoil fuel g body tol w = .ok w') (a b : ℤ) (hr : Received w.out w'.out a b) :
    ∃ i j d n, Lateral d ∧ Opens w.out i j d n ∧ a = i + n * d.1 ∧ b = j + n * d.2 :=
  (moveIntersectingEntries_path ⟨htol, htol'⟩ fuel fuel 0 directions8 (.refl _) w hB hS _ h).only a b hr

/-- **C46**, removals. Soil is removed only from a column that is enclosed: in each of the eight lateral
directions the corridor starting there ends at a wall that closes its last gap, and the gaps of all
columns of the corridor are left filled with soil. -/
theorem C46_removed (fuel : ℕ) (g : Grid K) (body : Body K) (c tol : K) (w w' : World K) (htol : 0 < tol)
    (htol' : 2 * tol < c) (hB : BodyOK c w.out) (hS : SoilOK c w.out)
    (h : moveIntersectingBodySoil fuel g body tol w = .ok w') :
    ∃ m, w'.log = w.log ++ m ∧ ∀ x ∈ m, ∃ i j, ∀ d, Lateral d → ∃ n, Closed w.out i j d n ∧
      ∀ k, 0 ≤ k → k < n → Full w'.out (i + k * d.1) (j + k * d.2) :=
  (moveIntersectingEntries_path ⟨htol, htol'⟩ fuel fuel 0 directions8 (.refl _) w hB hS _ h).left

/-- **C46**, one step. If a step warns that soil was removed, then in the resulting state the body has a
column with a gap from which every corridor is closed by a wall. -/
theorem C46_step (hs : SqrtLaw K) (g : Grid K) (p : SimParam K) (tol : K) (S : Setup g p tol)
    (fuel : ℕ) (pos : Vec3 K) (ori : Quat K) (body : Body K) (hoff : PoseOff g body (pos, ori))
    (w : World K) (h : Sound g w.out) (r : StepResult K)
    (hr : step fuel pos ori g body p tol w = .ok r) :
    ∃ m, r.world.log = w.log ++ m ∧ ∀ x, .soilRemoved x ∈ m →
      ∃ i j, ∀ d, Lateral d → ∃ n, Closed r.world.out i j d n := by
  unfold step at hr
  rcases hc : checkBodyMovement pos ori g body with ⟨moved, warns⟩
  rw [hc] at hr
  dsimp only at hr
  have hw : ∀ h, .soilRemoved h ∉ warns := by
    unfold checkBodyMovement at hc
    dsimp only at hc
    split_ifs at hc <;> cases hc <;> simp
  cases moved with
  | false =>
    simp only [Bool.not_false, if_true, pure_eq_ok, Except.ok.injEq] at hr
    subst hr
    exact ⟨warns, rfl, fun x hx => absurd hx (hw x)⟩
  | true =>
    simp only [Bool.not_true, Bool.false_eq_true, if_false] at hr
    obtain ⟨s, h1, hr⟩ := bind_eq_ok.mp hr
    obtain ⟨⟨w2, b2⟩, h2, hr⟩ := bind_eq_ok.mp hr
    obtain ⟨w3, h3, hr⟩ := bind_eq_ok.mp hr
    obtain ⟨⟨w4, it⟩, h4, hr⟩ := bind_eq_ok.mp hr
    simp only [pure_eq_ok, Except.ok.injEq] at hr
    subst hr
    have N := calcBodyPos_post hs S.zgrid S.cellXY S.level S.tolPos S.tolThird S.buffer h.size h.inArea
      h.wf.bodyOK.al hoff h1
    have hst : Stored g.cellZ s := by
      obtain ⟨b, a, rfl⟩ : ∃ b a, s = { w.out with body := b, bodyArea := a } := ⟨_, _, N.eq⟩
      have := h.wf.soilOK.stored
      exact ⟨this.1, this.2, this.3, this.4, this.5, this.6, this.7⟩
    obtain ⟨-, ⟨c1, c2, c3, c4⟩, S2, -, -, -, n, l2, -⟩ := updateBodySoil_spec pos ori g body tol S.zgrid.pos
      { w with out := s, log := w.log ++ warns } N.bodyOK hst _ h2
    dsimp only at S2 l2 c1 c2 c3 c4
    have B2 : BodyOK g.cellZ w2.out := N.bodyOK.congr c1 c3 c4
    have lc3 := moveIntersectingCells_loc _ _ _ _ _ _ h3
    unfold moveIntersectingCells at h3
    obtain ⟨w2', h3, h3'⟩ := bind_eq_ok.mp h3
    obtain ⟨m, l3, hm⟩ := C46_removed fuel g b2 g.cellZ tol w2 w2' S.tolOK.pos S.tolOK.lt B2 S2 h3
    have l3' := (moveIntersectingBody_loc _ _ _ _ h3').2
    obtain ⟨b4, l4⟩ := relaxLoop_frame _ _ _ _ _ _ _ _ h4
    have b24 : SameBody w2.out w4.out := lc3.body.trans b4
    refine ⟨warns ++ List.replicate n .soilToTerrain ++ m, ?_, ?_⟩
    · dsimp only at l4 ⊢
      rw [l4]
      show w3.log = _
      rw [l3', l3, l2]
      simp
    · intro x hx
      simp only [List.mem_append, List.mem_replicate, reduceCtorEq, and_false, or_false] at hx
      rcases hx with hx | hx
      · exact absurd hx (hw x)
      · obtain ⟨i, j, H⟩ := hm _ hx
        refine ⟨i, j, fun d hd => ?_⟩
        obtain ⟨n, hC, -⟩ := H d hd
        exact ⟨n, (closed_congr b24).mpr hC⟩

end

/-! ## Concrete cases -/

/-- A box: layers at 1–2 and 4–5 over (2,2), and a wall from 1 to 5 around it, except that column
(3,2) is only as high as `top`. -/
def boxBody (top : ℚ) (k : ℕ) (i j : ℤ) : ℚ :=
  if 1 ≤ i ∧ i ≤ 3 ∧ 1 ≤ j ∧ j ≤ 3 then
    match k with
    | 0 => 1
    | 1 => if i = 2 ∧ j = 2 then 2 else if i = 3 ∧ j = 2 then top else 5
    | 2 => if i = 2 ∧ j = 2 then 4 else 0
    | 3 => if i = 2 ∧ j = 2 then 5 else 0
    | _ => 0
  else 0

/-- Soil over (2,2) from 2 to 6 -/
def boxSoil (k : ℕ) (i j : ℤ) : ℚ :=
  if i = 2 ∧ j = 2 then
    match k with
    | 0 => 2
    | 1 => 6
    | _ => 0
  else 0

/-- The box with the soil -/
def boxState (top : ℚ) : SimOut ℚ :=
  { exState with
    terrain := fun _ _ => 0
    body := boxBody top
    bodySoil := boxSoil
    bodySoilPos := [⟨0, 2, 2, 0, 0, 0, 1⟩, ⟨0, 2, 2, 0, 0, 0, 3⟩] }

/-- The box with the soil and a random stream -/
def boxWorld (top : ℚ) : World ℚ := ⟨boxState top, fun n => 3 * n + 1, []⟩

theorem boxState_ok (top : ℚ) (h : top = 3 ∨ top = 5) : BodyOK 1 (boxState top) ∧ SoilOK 1 (boxState top) := by
  have h4 : ∀ k i j, 4 ≤ k → (boxState top).body k i j = 0 ∧ (boxState top).bodySoil k i j = 0 := by
    intro k i j hk
    match k, hk with
    | k + 4, _ => constructor <;> simp [boxState, boxBody, boxSoil]
  rcases h with rfl | rfl
  · exact BSCheck.ok (by decide +kernel) h4
  · exact BSCheck.ok (by decide +kernel) h4

/-- The closed box: one cell of soil, and then another, cannot be placed and is removed. -/
example : ∃ w', moveIntersectingBodySoil 1000 exGrid exBody (1 / 100) (boxWorld 5) = .ok w' ∧
    w'.log = [.soilRemoved 1, .soilRemoved 1] ∧ w'.out.bodySoil 1 2 2 = 4 := by
  have h : (match moveIntersectingBodySoil 1000 exGrid exBody (1 / 100) (boxWorld 5) with
    | .ok w' => decide (w'.log = [.soilRemoved 1, .soilRemoved 1] ∧ w'.out.bodySoil 1 2 2 = 4)
    | .error _ => false) = true := by decide +kernel
  revert h
  generalize moveIntersectingBodySoil 1000 exGrid exBody (1 / 100) (boxWorld 5) = r
  intro h
  match r, h with
  | .ok w', h => exact ⟨w', rfl, by simpa using h⟩

/-- The box with an opening above column (3,2): both cells of soil leave through it. -/
example : ∃ w', moveIntersectingBodySoil 1000 exGrid exBody (1 / 100) (boxWorld 3) = .ok w' ∧
    w'.log = [] ∧ Received (boxWorld 3).out w'.out 3 2 := by
  have h : (match moveIntersectingBodySoil 1000 exGrid exBody (1 / 100) (boxWorld 3) with
    | .ok w' => decide (w'.log = [] ∧ layerSoil (boxWorld 3).out 0 3 2 < layerSoil w'.out 0 3 2)
    | .error _ => false) = true := by decide +kernel
  revert h
  generalize moveIntersectingBodySoil 1000 exGrid exBody (1 / 100) (boxWorld 3) = r
  intro h
  match r, h with
  | .ok w', h =>
    obtain ⟨h1, h2⟩ := of_decide_eq_true h
    exact ⟨w', rfl, h1, .inr ⟨0, .inl rfl, h2⟩⟩

end Soil

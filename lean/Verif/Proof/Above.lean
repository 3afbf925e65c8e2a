import Verif.Props.Shape
import Verif.Proof.History
import Verif.Proof.Active
import Verif.Spec.Above

/-! # A body above a terrain at rest -/

set_option linter.unusedSectionVars false
set_option linter.unusedSimpArgs false

namespace Soil

variable {K : Type} [Field K] [LinearOrder K] [FloorRing K] [Transc K] [IsStrictOrderedRing K]

theorem reposeStep_eq (g : Grid K) (p : SimParam K) : dhMax g p = reposeStep g p := by
  unfold dhMax reposeStep
  simp only [ex_mul, ex_round, ex_div, ex_tan]

theorem locateIntersectingIn_mem (s : SimOut K) (tol : K) (l : List (ℤ × ℤ)) :
    Post (locateIntersectingIn s tol l) fun cs => ∀ c ∈ cs, (c.1 = 0 ∨ c.1 = 2) ∧
      s.InGrid c.2.1 c.2.2 ∧ intersectingAt s tol c.1 c.2.1 c.2.2 = true := by
  induction l with
  | nil => exact Post.ok (by simp)
  | cons p l ih =>
    unfold locateIntersectingIn
    refine Post.guard fun hp => ?_
    refine Post.bind ih ?_
    intro r hr
    refine Post.ok ?_
    intro c hc
    simp only [List.mem_append] at hc
    rcases hc with (hc | hc) | hc
    · split_ifs at hc with h
      · rw [List.mem_singleton] at hc; subst hc; exact ⟨.inl rfl, hp, h⟩
      · simp at hc
    · split_ifs at hc with h
      · rw [List.mem_singleton] at hc; subst hc; exact ⟨.inr rfl, hp, h⟩
      · simp at hc
    · exact hr c hc

/-- Nothing intersects when the body is above the terrain and holds no entry. -/
theorem moveIntersectingCells_idle (fuel : ℕ) (g : Grid K) (body : Body K) (tol : K) (w : World K)
    (ht : 0 ≤ tol) (he : w.out.bodySoilPos = [])
    (ha : ∀ k i j, w.out.InGrid i j → k = 0 ∨ k = 2 → HasBody w.out k i j →
      w.out.terrain i j ≤ w.out.body k i j) :
    Post (moveIntersectingCells fuel g body tol w) fun w' => w' = w := by
  unfold moveIntersectingCells
  have h0 : moveIntersectingBodySoil fuel g body tol w = .ok w := by
    unfold moveIntersectingBodySoil moveIntersectingEntries
    rw [he]
    rfl
  rw [h0, ok_bind]
  unfold moveIntersectingBody
  refine Post.bind (locateIntersectingIn_mem _ _ _) ?_
  intro cs hcs
  have : cs = [] := by
    rw [List.eq_nil_iff_forall_not_mem]
    intro c hc
    obtain ⟨h1, h2, h3⟩ := hcs c hc
    unfold intersectingAt at h3
    simp only [Bool.and_eq_true, Bool.not_eq_true', bodyAbs_false_iff, ex_lt, ex_sub, decide_eq_true_eq] at h3
    have := ha c.1 _ _ h2 h1 h3.1
    linarith [h3.2]
  subst this
  exact Post.ok rfl

/-- One pass over a terrain at rest, with no entry: nothing moves and equilibrium is reported. -/
theorem relaxOnce_idle (g : Grid K) (body : Body K) (p : SimParam K) (tol : K) (w : World K)
    (h : Sound g w.out) (he : w.out.bodySoilPos = []) (hc : Calm g p tol w.out) :
    Post (relaxOnce g body p tol w) fun w' =>
      w' = w.mapOut fun s => { s with impactArea := impactOf s, equilibrium := true } := by
  unfold relaxOnce
  dsimp only
  have hin : ∀ i j, (i, j) ∈ (impactOf w.out).cells →
      (1 ≤ i ∧ i < 2 * g.halfX) ∧ (1 ≤ j ∧ j < 2 * g.halfY) := by
    intro i j hm
    rw [Area.mem_cells] at hm
    obtain ⟨a1, a2, a3, a4⟩ := h.area
    obtain ⟨b1, b2, b3, b4⟩ := h.relax
    obtain ⟨e1, e2⟩ := h.size
    unfold impactOf at hm
    dsimp only at hm
    rw [e1] at a2 b2
    rw [e2] at a4 b4
    omega
  have hT : Post (relaxTerrain g body p tol (w.mapOut fun s => { s with impactArea := impactOf s }))
      fun w' => w' = w.mapOut fun s => { s with impactArea := impactOf s, equilibrium := true } := by
    unfold relaxTerrain
    dsimp only
    unfold locateUnstableTerrainCell
    refine Post.bind (locateUnstableCells_sub _ _ _ _) ?_
    intro cs hcs
    have : cs = [] := by
      rw [List.eq_nil_iff_forall_not_mem]
      intro c hm
      obtain ⟨h1, h2⟩ := (hcs c).mp hm
      obtain ⟨h3, h4⟩ := hin c.1 c.2 h1
      rw [unstableAt_iff, reposeStep_eq] at h2
      exact hc c.1 c.2 h3 h4 h2
    subst this
    exact Post.ok rfl
  refine Post.bind hT ?_
  rintro _ rfl
  have hsh : shuffleEntries (w.mapOut fun s => { s with impactArea := impactOf s, equilibrium := true }) =
      w.mapOut fun s => { s with impactArea := impactOf s, equilibrium := true } := by
    unfold shuffleEntries World.mapOut
    dsimp only
    rw [he]
    rfl
  rw [hsh]
  unfold relaxBodySoil World.mapOut
  dsimp only
  rw [he]
  refine Post.ok ?_
  simp [he]

theorem relaxLoop_idle (g : Grid K) (body : Body K) (p : SimParam K) (tol : K) (hp : 1 ≤ p.maxIterations)
    (fuel : ℕ) (w : World K) (hq : w.out.equilibrium = false)
    (h : Sound g w.out) (he : w.out.bodySoilPos = []) (hc : Calm g p tol w.out) :
    Post (relaxLoop g body p tol fuel 0 w) fun x => x.2 = 1 ∧
      x.1 = w.mapOut fun s => { s with impactArea := impactOf s, equilibrium := true } := by
  unfold relaxLoop
  rw [hq]
  have : decide ((0 : ℤ) < p.maxIterations) = true := by simp; omega
  rw [this]
  simp only [Bool.not_false, Bool.and_self, if_true]
  cases fuel with
  | zero => exact Post.error
  | succ n =>
    dsimp only
    refine Post.bind (relaxOnce_idle g body p tol w h he hc) ?_
    rintro _ rfl
    unfold relaxLoop
    refine Post.ok ⟨rfl, rfl⟩

/-- A step of a body without soil above a terrain at rest -/
theorem step_idle (hs : SqrtLaw K) {g : Grid K} {p : SimParam K} {tol : K} (S : Setup g p tol)
    (hp : 1 ≤ p.maxIterations) (fuel : ℕ) (pos : Vec3 K) (ori : Quat K) (body : Body K)
    (hoff : PoseOff g body (pos, ori)) (w : World K) (h : Sound g w.out) (he : w.out.bodySoilPos = [])
    (hc : Calm g p tol w.out) (hA : Above g tol body w.out.terrain (pos, ori)) :
    Post (step fuel pos ori g body p tol w) fun r =>
      r.world.out.terrain = w.out.terrain ∧ r.world.out.bodySoilPos = [] ∧
      r.world.rng = w.rng ∧
      (∃ m, r.world.log = w.log ++ m ∧ ∀ x ∈ m, x = .largeMovement) ∧
      (r.updated = true → r.world.out.equilibrium = true ∧ r.passes = 1) := by
  have hsound := step_sound hs S fuel pos ori body hoff w h
  intro r hr
  have hr0 := hr
  unfold step at hr
  have hw : ∀ x ∈ (checkBodyMovement pos ori g body).2, x = .largeMovement := by
    intro x hx
    unfold checkBodyMovement at hx
    dsimp only at hx
    split_ifs at hx <;> simp at hx
    exact hx
  cases hm : checkBodyMovement pos ori g body with
  | mk moved warns =>
    rw [hm] at hr hw
    dsimp only at hr hw
    cases moved with
    | false =>
      simp only [Bool.not_false, if_true] at hr
      cases hr
      exact ⟨rfl, he, rfl, ⟨warns, rfl, hw⟩, by simp⟩
    | true =>
      simp only [Bool.not_true, Bool.false_eq_true, if_false] at hr
      obtain ⟨s, h1, hr⟩ := bind_eq_ok.mp hr
      obtain ⟨⟨w2, b2⟩, h2, hr⟩ := bind_eq_ok.mp hr
      obtain ⟨w3, h3, hr⟩ := bind_eq_ok.mp hr
      obtain ⟨⟨w4, it⟩, h4, hr⟩ := bind_eq_ok.mp hr
      cases hr
      dsimp only
      have N := calcBodyPos_post hs S.zgrid S.cellXY S.level S.tolPos S.tolThird S.buffer h.size h.inArea
        h.wf.bodyOK.al hoff h1
      obtain ⟨zlo, zhi, hz, hsm, hab⟩ := hA
      have hH := C44_heights hs fuel w.out s pos ori g body p tol S.zgrid S.cellXY S.level S.tolPos
        S.tolThird S.buffer h.size h.inArea h.wf.bodyOK.al hoff zlo zhi hz hsm h1
      have hM := step_mid hs S pos ori body hoff w h h1 h2 h3
      obtain ⟨b, a, rfl⟩ : ∃ b a, s = { w.out with body := b, bodyArea := a } := ⟨_, _, N.eq⟩
      have hst : Stored g.cellZ ({ w.out with body := b, bodyArea := a } : SimOut K) := by
        have := h.wf.soilOK.stored
        exact ⟨this.1, this.2, this.3, this.4, this.5, this.6, this.7⟩
      obtain ⟨-, sb2, -, -, -, -, n, l2, ln, n2⟩ := updateBodySoil_spec pos ori g body tol S.zgrid.pos
        { w with out := _, log := w.log ++ warns } N.bodyOK hst _ h2
      dsimp only at ln l2 n2 sb2
      rw [he] at ln
      simp only [List.filter_nil, List.length_nil] at ln
      have hn : n = 0 := by omega
      have he2 : w2.out.bodySoilPos = [] := by
        rw [← List.length_eq_zero_iff]; omega
      subst hn
      have ht2 := n2 rfl
      simp only [List.replicate_zero, List.append_nil] at l2
      obtain ⟨c1, c2, c3, c4⟩ := sb2
      have e3 := moveIntersectingCells_idle fuel g b2 tol w2 S.tolPos.le he2 (by
        intro k i j hij hk hb
        have hij' : ({ w.out with body := b, bodyArea := a } : SimOut K).InGrid i j := by
          unfold SimOut.InGrid at hij ⊢; rwa [c3, c4] at hij
        have hb' : HasBody ({ w.out with body := b, bodyArea := a } : SimOut K) k i j := by
          unfold HasBody at hb ⊢; rwa [c1] at hb
        have ho := N.bodyOK.order k i j hij' hk hb'
        have := (hH i j _ hij' ⟨k, hk, hb', le_rfl, ho.le⟩).1
        rw [ht2, c1]
        refine le_trans ?_ this
        obtain ⟨i1, i2, i3, i4⟩ := hij'
        obtain ⟨z1, z2⟩ := h.size
        dsimp only at i2 i4
        rw [z1] at i2; rw [z2] at i4
        exact hab i j ⟨i1, by omega⟩ ⟨i3, by omega⟩) _ h3
      subst e3
      have hS3 := hM.1
      have e4 := relaxLoop_idle g b2 p tol hp fuel (w3.mapOut fun s => { s with equilibrium := false })
        rfl (hS3.setEq false) he2 (by
          intro i j hi hj hu
          refine hc i j hi hj ?_
          obtain ⟨i', j', ha', hu⟩ := hu
          refine ⟨i', j', ha', ?_⟩
          have e : (w3.mapOut fun s => { s with equilibrium := false }).out.terrain = w.out.terrain := ht2
          rwa [e] at hu) _ h4
      obtain ⟨e5, e4⟩ := e4
      dsimp only at e4 e5
      subst e4
      have lr := (updateBodySoil_loc _ _ _ _ _ _ _ h2).2.1
      exact ⟨ht2, he2, lr, ⟨warns, l2, hw⟩, fun _ => ⟨rfl, e5⟩⟩

end Soil

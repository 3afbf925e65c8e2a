import Verif.Proof.Scoop
import Verif.Props.Depth

/-! # C61: soil gets onto the body by avalanches of terrain only -/

set_option linter.unusedSectionVars false

namespace Soil

section Exact

variable {K : Type} [Field K] [LinearOrder K] [FloorRing K] [Transc K] [IsStrictOrderedRing K]

/-- **C61**, transport. Carrying the soil along with the body takes nothing from the terrain, in no column. -/
theorem C61_transport (pos : Vec3 K) (ori : Quat K) (g : Grid K) (body : Body K) (tol : K) (hc : 0 < g.cellZ)
    (w : World K) (hB : BodyOK g.cellZ w.out) (hS : Stored g.cellZ w.out) (w' : World K) (body' : Body K)
    (h : updateBodySoil pos ori g body tol w = .ok (w', body')) :
    (∀ i j, w.out.terrain i j ≤ w'.out.terrain i j) ∧ carriedSoil w'.out ≤ carriedSoil w.out := by
  have u := updateBodySoil_up pos ori g body tol hc w hS _ h
  obtain ⟨-, sb, -, t, -⟩ := updateBodySoil_spec pos ori g body tol hc w hB hS _ h
  exact ⟨fun i j => u i j, carriedSoil_le sb t.le u⟩

/-- **C61**, intersections. Pushing soil on the body out of the body takes nothing from the terrain; pushing terrain out of
the body leaves the soil on the body and its bookkeeping as they are, so it puts nothing on the body. -/
theorem C61_push (fuel : ℕ) (g : Grid K) (body : Body K) (c tol : K) (htol : 0 < tol) (htol' : 2 * tol < c)
    (w : World K) (hB : BodyOK c w.out) (hS : SoilOK c w.out) :
    (∀ w', moveIntersectingBodySoil fuel g body tol w = .ok w' →
      (∀ i j, w.out.terrain i j ≤ w'.out.terrain i j) ∧ carriedSoil w'.out ≤ carriedSoil w.out) ∧
    (∀ w', moveIntersectingBody fuel tol w = .ok w' →
      w'.out.bodySoil = w.out.bodySoil ∧ w'.out.bodySoilPos = w.out.bodySoilPos ∧
      carriedSoil w'.out = carriedSoil w.out) := by
  refine ⟨fun w' h => ?_, fun w' h => ?_⟩
  · have u := moveIntersectingEntries_up _ _ _ _ htol.le _ _ _ _ _ h
    obtain ⟨-, -, sb, m, -, hm, ht⟩ := C23_push_body_soil fuel g body c tol w w' htol htol' hB hS h
    have h0 : 0 ≤ removedSoil m := by
      unfold removedSoil
      refine List.sum_nonneg fun x hx => ?_
      obtain ⟨y, hy, rfl⟩ := List.mem_map.mp hx
      obtain ⟨z, hz, rfl⟩ := hm y hy
      exact hz.le
    exact ⟨fun i j => u i j, carriedSoil_le sb (by linarith) u⟩
  · have e := (C22_push_terrain fuel c tol w w' htol htol' hB.al hS.terrain_al h).2.2.1
    rw [e]
    exact ⟨rfl, rfl, carriedSoil_congr rfl rfl fun _ _ _ _ => rfl⟩

/-- **C61**, relaxation. Avalanches of terrain take nothing from the body, on no layer of no column; avalanches of soil on
the body take nothing from the terrain. -/
theorem C61_relax {g : Grid K} {p : SimParam K} {tol : K} (htol : 0 < tol) (htol' : 2 * tol < g.cellZ)
    (hxy : 0 ≤ g.cellXY) (ht : 0 ≤ Transc.tan p.reposeAngle) (body : Body K) (w : World K)
    (hw : WellFormed g.cellZ w.out) :
    (∀ w', relaxTerrain g body p tol w = .ok w' →
      ∀ k i j, w.out.InGrid i j → k = 0 ∨ k = 2 → layerSoil w.out k i j ≤ layerSoil w'.out k i j) ∧
    (∀ w', relaxBodySoil g body p tol w = .ok w' →
      (∀ i j, w.out.terrain i j ≤ w'.out.terrain i j) ∧ carriedSoil w'.out ≤ carriedSoil w.out) := by
  have hd0 := dhMax_nonneg g p (by linarith) hxy ht
  refine ⟨fun w' h => (relaxTerrain_avalanches g body p tol ⟨htol, htol'⟩ w hw w' h).layers_up, fun w' h => ?_⟩
  have sb := (relaxBodySoil_frame g body p tol w w' h).1
  have tt := (relaxBodySoil_wf g body p tol ⟨htol, htol'⟩ hd0 w hw w' h).2
  have u : TerrainUp w.out w'.out := by
    unfold relaxBodySoil at h
    obtain ⟨⟨s1, q1, r1⟩, h1, h2⟩ := bind_eq_ok.mp h
    have := (relaxBodyEntries_wf g body _ tol ⟨htol, htol'⟩ (dhMax_al g p) hd0 _ _ _ (fun d hd => hd) _ _ _
      (by rw [app_nil]; exact hw) _ h1).2.2.2.1
    cases h2
    exact this
  exact ⟨fun i j => u i j, carriedSoil_le sb tt.le u⟩

/-- **C61**, one step. If the body carries more soil after a step than before, then during the relaxation of that step soil
slid from the terrain of a column onto a layer of the body in a column beside it, whose surface was lower than the terrain by
more than the repose height. -/
theorem C61_step (hs : SqrtLaw K) (g : Grid K) (p : SimParam K) (tol : K) (S : Setup g p tol)
    (fuel : ℕ) (pos : Vec3 K) (ori : Quat K) (body : Body K) (hoff : PoseOff g body (pos, ori))
    (w : World K) (h : Sound g w.out) (r : StepResult K) (hr : step fuel pos ori g body p tol w = .ok r)
    (hlt : carriedSoil w.out < carriedSoil r.world.out) :
    0 < p.maxIterations ∧ r.updated = true ∧
    ∃ s₁ s₂ i j k i' j' m, SameBody r.world.out s₁ ∧ WellFormed g.cellZ s₁ ∧ Beside (i, j) (i', j') ∧
      Avalanche g.cellZ (dhMax g p) none s₁ s₂ (.ground i j) (.layer k i' j') m ∧
      Avalanches (fun _ => True) g.cellZ (dhMax g p) s₂ r.world.out := by
  unfold step at hr
  rcases hc : checkBodyMovement pos ori g body with ⟨moved, warns⟩
  rw [hc] at hr
  dsimp only at hr
  cases moved with
  | false =>
    simp only [Bool.not_false, if_true, pure_eq_ok, Except.ok.injEq] at hr
    subst hr
    exact absurd hlt (lt_irrefl _)
  | true =>
    simp only [Bool.not_true, Bool.false_eq_true, if_false] at hr
    obtain ⟨s, h1, hr⟩ := bind_eq_ok.mp hr
    obtain ⟨⟨w2, b2⟩, h2, hr⟩ := bind_eq_ok.mp hr
    obtain ⟨w3, h3, hr⟩ := bind_eq_ok.mp hr
    obtain ⟨⟨w4, it⟩, h4, hr⟩ := bind_eq_ok.mp hr
    simp only [pure_eq_ok, Except.ok.injEq] at hr
    subst hr
    dsimp only at hlt ⊢
    obtain ⟨s3, -⟩ := step_mid hs S pos ori body hoff w h h1 h2 h3
    have N := calcBodyPos_post hs S.zgrid S.cellXY S.level S.tolPos S.tolThird S.buffer h.size h.inArea
      h.wf.bodyOK.al hoff h1
    have hst : Stored g.cellZ s := by
      obtain ⟨b, a, rfl⟩ : ∃ b a, s = { w.out with body := b, bodyArea := a } := ⟨_, _, N.eq⟩
      have := h.wf.soilOK.stored
      exact ⟨this.1, this.2, this.3, this.4, this.5, this.6, this.7⟩
    have c1 : carriedSoil s = carriedSoil w.out := by
      obtain ⟨b, a, rfl⟩ : ∃ b a, s = { w.out with body := b, bodyArea := a } := ⟨_, _, N.eq⟩
      rfl
    have c2 := (C61_transport pos ori g body tol S.zgrid.pos _ N.bodyOK hst _ _ h2).2
    dsimp only at c2
    have lc2 := (updateBodySoil_loc _ _ _ _ _ _ _ h2).1
    have S2 := (updateBodySoil_spec pos ori g body tol S.zgrid.pos _ N.bodyOK hst _ h2).2.2.1
    have B2 : BodyOK g.cellZ w2.out := N.bodyOK.congr lc2.body.1 lc2.body.2.2.1 lc2.body.2.2.2
    unfold moveIntersectingCells at h3
    obtain ⟨w5, h5, h6⟩ := bind_eq_ok.mp h3
    have c5 := ((C61_push fuel g b2 g.cellZ tol S.tolOK.pos S.tolOK.lt w2 B2 S2).1 w5 h5).2
    obtain ⟨lc5, S5, -⟩ := moveIntersectingBodySoil_post _ _ _ S.tolOK w2 w5 B2 S2 h5
    have B5 : BodyOK g.cellZ w5.out := B2.congr lc5.body.1 lc5.body.2.2.1 lc5.body.2.2.2
    have c3 := ((C61_push fuel g b2 g.cellZ tol S.tolOK.pos S.tolOK.lt w5 B5 S5).2 w3 h6).2.2
    have hle : carriedSoil (w3.mapOut fun s => { s with equilibrium := false }).out ≤ carriedSoil w.out := by
      show carriedSoil w3.out ≤ _
      rw [c3]
      exact (c5.trans c2).trans c1.le
    have hd0 := dhMax_nonneg g p S.zgrid.pos S.cellXY.le S.repose
    have b4 := (relaxLoop_frame _ _ _ _ _ _ _ _ h4).1
    obtain ⟨-, a4⟩ := relaxLoop_avalanches S.tolOK hd0 b2 fuel 0
      (w3.mapOut fun s => { s with equilibrium := false }) (s3.wf.congr rfl rfl rfl rfl rfl rfl) _ h4
    refine ⟨?_, rfl, ?_⟩
    · by_contra hn
      have e : relaxLoop g b2 p tol fuel 0 (w3.mapOut fun s => { s with equilibrium := false }) =
          .ok (w3.mapOut fun s => { s with equilibrium := false }, 0) := by
        unfold relaxLoop
        rw [if_neg (by simp [hn])]
      rw [e] at h4
      cases h4
      exact absurd hlt (not_lt.mpr hle)
    · obtain ⟨x1, x2, i, j, k, i', j', m, y1, y2, y3, y4, y5⟩ := a4.scoop (hle.trans_lt hlt)
      refine ⟨x1, x2, i, j, k, i', j', m, ?_, y2, y3, y4, y5⟩
      have z := y4.body.trans y5.sameBody
      exact ⟨z.1.symm, z.2.1.symm, z.2.2.1.symm, z.2.2.2.symm⟩

/-- **C61**, histories without relaxation: if no relaxation is made the body never carries more soil than at the
beginning; a history that starts without soil on the body never puts any on it. -/
theorem C61_history (hs : SqrtLaw K) (g : Grid K) (p : SimParam K) (tol : K) (S : Setup g p tol)
    (h0 : p.maxIterations = 0) (fuel : ℕ) (qs : List (Vec3 K × Quat K)) (body body' : Body K)
    (hoff : ∀ q ∈ qs, PoseOff g body q) (w w' : World K) (h : Start g w.out)
    (hr : run fuel g p tol qs body w = .ok (body', w')) :
    ∀ k i j, w'.out.InGrid i j → k = 0 ∨ k = 2 → layerSoil w'.out k i j = 0 := by
  have key : carriedSoil w'.out ≤ carriedSoil w.out ∧ Sound g w'.out := by
    have H : ∀ (qs : List (Vec3 K × Quat K)) (body : Body K) (w : World K), Sound g w.out →
        (∀ q ∈ qs, PoseOff g body q) →
        Post (run fuel g p tol qs body w) fun r => carriedSoil r.2.out ≤ carriedSoil w.out ∧ Sound g r.2.out := by
      intro qs
      induction qs with
      | nil => exact fun body w h _ => Post.ok ⟨le_rfl, h⟩
      | cons q qs ih =>
        intro body w h hq
        obtain ⟨pos, ori⟩ := q
        unfold run
        intro r hr
        obtain ⟨r1, h1, h2⟩ := bind_eq_ok.mp hr
        have q1 := hq _ List.mem_cons_self
        have s1 := (step_sound hs S fuel pos ori body q1 w h r1 h1).1
        have hb : r1.body = body ∨ r1.body = { body with pos := pos, ori := ori } := by
          cases hu : r1.updated with
          | false => exact .inl ((C12_step fuel pos ori g body p tol w r1 h1).1 hu).2
          | true => exact .inr ((C12_step fuel pos ori g body p tol w r1 h1).2 hu)
        have c1 : carriedSoil r1.world.out ≤ carriedSoil w.out := by
          by_contra hn
          have := (C61_step hs g p tol S fuel pos ori body q1 w h r1 h1 (not_le.mp hn)).1
          exact absurd this (by rw [h0]; exact lt_irrefl _)
        have := ih r1.body r1.world s1 (fun q hm => by
          rcases hb with e | e <;> rw [e] <;> exact hq q (List.mem_cons_of_mem _ hm)) r h2
        exact ⟨this.1.trans c1, this.2⟩
    exact H qs body w h.sound hoff (body', w') hr
  have hz : carriedSoil w.out = 0 := by
    unfold carriedSoil layerSoil
    exact Finset.sum_eq_zero fun p _ => by simp only [h.bodySoil]; ring
  have hnn : ∀ k i j, w'.out.InGrid i j → k = 0 ∨ k = 2 → 0 ≤ layerSoil w'.out k i j := fun k i j hij hk =>
    key.2.wf.soilOK.layerSoil_nonneg hij hk
  have hsum : ∀ q ∈ gridCols w'.out, 0 ≤ layerSoil w'.out 0 q.1 q.2 + layerSoil w'.out 2 q.1 q.2 := fun q hq =>
    add_nonneg (hnn 0 _ _ (mem_gridCols.mp hq) (.inl rfl)) (hnn 2 _ _ (mem_gridCols.mp hq) (.inr rfl))
  have hall := (Finset.sum_eq_zero_iff_of_nonneg hsum).mp
    (le_antisymm (key.1.trans hz.le) (Finset.sum_nonneg hsum))
  intro k i j hij hk
  have := hall (i, j) (mem_gridCols.mpr hij)
  dsimp only at this
  have e0 := hnn 0 i j hij (.inl rfl)
  have e2 := hnn 2 i j hij (.inr rfl)
  rcases hk with rfl | rfl <;> linarith

end Exact

/-! ## The hypotheses can be met -/

/-- the body of the example in a pit five cells deep, no soil on the body -/
def scoopState : SimOut ℚ :=
  { exState with
    terrain := fun i j => if i = 2 ∧ (j = 2 ∨ j = 3) then 1 else 6
    bodySoil := fun _ _ _ => 0
    bodySoilPos := [] }

theorem scoopState_wf : WellFormed 1 scoopState := by
  refine WFCheck.wf (by decide +kernel) ?_
  intro k i j hk
  match k, hk with
  | k + 4, _ => exact ⟨rfl, rfl⟩

/-- C61, relaxation: terrain around the pit slides onto the body, which carries soil afterwards; the next relaxation of the soil on
the body returns too. -/
example : 0 ≤ exGrid.cellXY ∧ 0 ≤ Transc.tan exParam.reposeAngle ∧ WellFormed exGrid.cellZ scoopState ∧
    (∃ w', relaxTerrain exGrid exBody exParam (1 / 100) ⟨scoopState, fun n => 3 * n + 1, []⟩ = .ok w' ∧
      layerSoil scoopState 0 2 2 < layerSoil w'.out 0 2 2 ∧ w'.out.terrain 1 2 < scoopState.terrain 1 2) ∧
    (∃ w', relaxBodySoil exGrid exBody exParam (1 / 100) exWorld = .ok w' ∧
      w'.out.bodySoil 1 2 2 < exWorld.out.bodySoil 1 2 2) := by
  refine ⟨by decide +kernel, by decide +kernel, scoopState_wf, ?_, exBodySoil_runs⟩
  have h : (match relaxTerrain exGrid exBody exParam (1 / 100) ⟨scoopState, fun n => 3 * n + 1, []⟩ with
    | .ok w' => decide (layerSoil scoopState 0 2 2 < layerSoil w'.out 0 2 2 ∧
        w'.out.terrain 1 2 < scoopState.terrain 1 2)
    | .error _ => false) = true := by decide +kernel
  revert h
  generalize relaxTerrain exGrid exBody exParam (1 / 100) ⟨scoopState, fun n => 3 * n + 1, []⟩ = r
  intro h
  match r, h with
  | .ok w', h => exact ⟨w', rfl, by simpa using h⟩

/-- C61, histories: a bucket or blade is put into flat ground, anywhere in the middle of the grid and however deep, without
relaxation.  The call returns and the body carries nothing. -/
example (kind : BodyKind) (T : ℤ) (rng : Rng) (a b c : ℝ) (ha : |a| ≤ 4) (hb : |b| ≤ 5) (hc : |c| ≤ 6) :
    ∃ N, ∀ fuel, N ≤ fuel → ∃ body' w', run fuel (rGrid ℝ) { wideParam with maxIterations := 0 } (1 / 100000)
        [(⟨a, b, c⟩, ⟨1, 0, 0, 0⟩)] (rBody ℝ kind) (flatGround T rng) = .ok (body', w') ∧
      ∀ k i j, w'.out.InGrid i j → k = 0 ∨ k = 2 → layerSoil w'.out k i j = 0 := by
  have S : Setup (rGrid ℝ) { wideParam with maxIterations := 0 } (1 / 100000) :=
    { wideSetup with }
  have hin := rBody_inside sqrtLaw_real kind a b c ha hb hc
  have hst : Start (rGrid ℝ) (flatGround T rng).out := rStart fun _ _ => T
  obtain ⟨N, hN⟩ := step_ok sqrtLaw_real S (by norm_num [rGrid]) ⟨a, b, c⟩ ⟨1, 0, 0, 0⟩
    (rBody ℝ kind) (fun v hv => (hin v hv).1) (fun v hv => (hin v hv).2) (flatGround T rng) hst.sound
    (fun e he => by simp [flatGround, mkSimOut] at he)
  refine ⟨N, fun fuel hf => ?_⟩
  obtain ⟨r, hr⟩ := hN fuel hf
  have hrun : run fuel (rGrid ℝ) { wideParam with maxIterations := 0 } (1 / 100000)
      [(⟨a, b, c⟩, ⟨1, 0, 0, 0⟩)] (rBody ℝ kind) (flatGround T rng) = .ok (r.body, r.world) := by
    simp only [run, hr, ok_bind]
  exact ⟨r.body, r.world, hrun, C61_history sqrtLaw_real _ _ _ S rfl fuel _ _ _
    (fun q hq v hv => by
      rw [List.mem_singleton] at hq
      subst hq
      exact (hin v hv).1) (flatGround T rng) r.world hst hrun⟩

end Soil

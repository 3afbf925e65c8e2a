import Verif.Proof.Above
import Verif.Proof.Total
import Verif.Props.Rest

/-! # C45: a body without soil above a terrain at rest -/

set_option linter.unusedSectionVars false

namespace Soil

variable {K : Type} [Field K] [LinearOrder K] [FloorRing K] [Transc K] [IsStrictOrderedRing K]

/-- **C45**, one step. A body that carries no soil is moved to a pose above a terrain without unstable
columns: the terrain is unchanged, still no soil is carried, the random numbers are not used, the only
possible warning is about a large movement, and a step that moves the body makes one relaxation pass
and reports equilibrium. -/
theorem C45_step (hs : SqrtLaw K) (g : Grid K) (p : SimParam K) (tol : K) (S : Setup g p tol)
    (hp : 1 ≤ p.maxIterations) (fuel : ℕ) (pos : Vec3 K) (ori : Quat K) (body : Body K)
    (hoff : PoseOff g body (pos, ori)) (w : World K) (h : Sound g w.out) (he : w.out.bodySoilPos = [])
    (hc : Calm g p tol w.out) (hA : Above g tol body w.out.terrain (pos, ori)) (r : StepResult K)
    (hr : step fuel pos ori g body p tol w = .ok r) :
    r.world.out.terrain = w.out.terrain ∧ r.world.out.bodySoilPos = [] ∧ r.world.rng = w.rng ∧
      (∃ m, r.world.log = w.log ++ m ∧ ∀ x ∈ m, x = .largeMovement) ∧
      (r.updated = true → r.world.out.equilibrium = true ∧ r.passes = 1) :=
  step_idle hs S hp fuel pos ori body hoff w h he hc hA r hr

theorem run_idle (hs : SqrtLaw K) {g : Grid K} {p : SimParam K} {tol : K} (S : Setup g p tol)
    (hp : 1 ≤ p.maxIterations) (fuel : ℕ) (qs : List (Vec3 K × Quat K)) (body : Body K)
    (hoff : ∀ q ∈ qs, PoseOff g body q) (w : World K) (h : Sound g w.out)
    (he : w.out.bodySoilPos = []) (hc : Calm g p tol w.out)
    (hA : ∀ q ∈ qs, Above g tol body w.out.terrain q) :
    AllSettle fuel g p tol qs body w ∧
    Post (run fuel g p tol qs body w) fun r => r.2.out.terrain = w.out.terrain ∧
      r.2.out.bodySoilPos = [] ∧ r.2.rng = w.rng ∧
      ∃ m, r.2.log = w.log ++ m ∧ ∀ x ∈ m, x = .largeMovement := by
  induction qs generalizing body w with
  | nil => exact ⟨trivial, Post.ok ⟨rfl, he, rfl, [], by simp, by simp⟩⟩
  | cons q qs ih =>
    have hstep := step_idle hs S hp fuel q.1 q.2 body (hoff _ List.mem_cons_self) w h he hc
      (hA _ List.mem_cons_self)
    have hnext : ∀ r1, step fuel q.1 q.2 g body p tol w = .ok r1 →
        AllSettle fuel g p tol qs r1.body r1.world ∧
        Post (run fuel g p tol qs r1.body r1.world) fun r => r.2.out.terrain = r1.world.out.terrain ∧
          r.2.out.bodySoilPos = [] ∧ r.2.rng = r1.world.rng ∧
          ∃ m, r.2.log = r1.world.log ++ m ∧ ∀ x ∈ m, x = .largeMovement := by
      intro r1 h1
      obtain ⟨s1, -⟩ := step_sound hs S fuel q.1 q.2 body (hoff _ List.mem_cons_self) w h r1 h1
      obtain ⟨t1, e1, -⟩ := hstep r1 h1
      have hb : r1.body = body ∨ r1.body = { body with pos := q.1, ori := q.2 } := by
        cases hu : r1.updated with
        | false => exact .inl ((C12_step fuel q.1 q.2 g body p tol w r1 h1).1 hu).2
        | true => exact .inr ((C12_step fuel q.1 q.2 g body p tol w r1 h1).2 hu)
      refine ih r1.body ?_ r1.world s1 e1 ?_ ?_
      · intro x hx
        have := hoff x (List.mem_cons_of_mem _ hx)
        rcases hb with e | e
        · rwa [e]
        · rw [e]; exact this
      · intro i j hi hj hu
        refine hc i j hi hj ?_
        unfold Unstable at hu ⊢
        rwa [t1] at hu
      · intro x hx
        have := hA x (List.mem_cons_of_mem _ hx)
        rw [t1]
        rcases hb with e | e
        · rwa [e]
        · rw [e]; exact this
    constructor
    · intro r1 h1
      obtain ⟨-, -, -, ⟨m, l, hm⟩, hq⟩ := hstep r1 h1
      refine ⟨fun hu => ⟨(hq hu).1, m, l, fun hx => ?_⟩, (hnext r1 h1).1⟩
      exact absurd (hm _ hx) (by simp)
    · obtain ⟨pos, ori⟩ := q
      unfold run
      intro r hr
      obtain ⟨r1, h1, h2⟩ := bind_eq_ok.mp hr
      obtain ⟨t1, -, g1, ⟨m1, l1, w1⟩, -⟩ := hstep r1 h1
      obtain ⟨t2, e2, g2, m2, l2, w2⟩ := (hnext r1 h1).2 r h2
      refine ⟨t2.trans t1, e2, g2.trans g1, m1 ++ m2, by rw [l2, l1, List.append_assoc], fun x hx => ?_⟩
      exact (List.mem_append.mp hx).elim (w1 x) (w2 x)

/-- **C45**, histories. From a terrain at rest, moving the body through any number of poses above the
terrain leaves the terrain as it is and never picks up soil. -/
theorem C45_history (hs : SqrtLaw K) (g : Grid K) (p : SimParam K) (tol : K) (S : Setup g p tol)
    (hp : 1 ≤ p.maxIterations) (fuel : ℕ) (qs : List (Vec3 K × Quat K)) (body body' : Body K)
    (hoff : ∀ q ∈ qs, PoseOff g body q) (w w' : World K) (h : Start g w.out)
    (hc : Calm g p tol w.out) (hA : ∀ q ∈ qs, Above g tol body w.out.terrain q)
    (hr : run fuel g p tol qs body w = .ok (body', w')) :
    w'.out.terrain = w.out.terrain ∧ w'.out.bodySoilPos = [] ∧
      (∀ k i j, w'.out.InGrid i j → k = 0 ∨ k = 2 → ¬ HasSoil w'.out k i j) ∧
      ∃ m, w'.log = w.log ++ m ∧ ∀ x ∈ m, x = .largeMovement := by
  obtain ⟨t, e, -, m⟩ := (run_idle hs S hp fuel qs body hoff w h.sound h.noEntry hc hA).2 _ hr
  obtain ⟨s, -⟩ := run_sound hs S fuel qs body hoff w h.sound _ hr
  refine ⟨t, e, fun k i j hij hk hS => ?_, m⟩
  obtain ⟨x, hx, -⟩ := s.wf.soilOK.stored.listed k i j hij hk hS
  dsimp only at e hx
  rw [e] at hx
  simp at hx

/-! ## The hypotheses can be met -/

/-- flat ground at an integer height -/
noncomputable def flatGround (T : ℤ) (rng : Rng) : World ℝ :=
  ⟨{ mkSimOut (rGrid ℝ) with terrain := fun _ _ => (T : ℝ) }, rng, []⟩

/-- parameters with a buffer of three columns -/
noncomputable def wideParam : SimParam ℝ := { rParam ℝ with cellBuffer := 3 }

theorem wideSetup : Setup (rGrid ℝ) wideParam (1 / 100000) where
  zgrid := rGrid_z
  cellXY := by norm_num [rGrid]
  level := rGrid_al
  tolPos := by norm_num
  tolThird := by norm_num
  tolCell := by norm_num [rGrid]
  buffer := by norm_num [wideParam]
  repose := by show 0 ≤ Real.tan 0; simp

theorem flatGround_calm (p : SimParam ℝ) (hp : 0 ≤ Transc.tan p.reposeAngle) (T : ℤ) (rng : Rng) :
    Calm (rGrid ℝ) p (1 / 100000) (flatGround T rng).out := by
  rintro i j - - ⟨i', j', -, hu⟩
  have : 0 ≤ reposeStep (rGrid ℝ) p := by
    rw [← reposeStep_eq]
    exact dhMax_nonneg _ _ (by norm_num [rGrid]) (by norm_num [rGrid]) hp
  simp only [flatGround] at hu
  linarith

theorem rBody_above (kind : BodyKind) (a b c : ℝ) (T : ℤ) (hT : (T : ℝ) ≤ c - 5) :
    Above (rGrid ℝ) (1 / 100000) (rBody ℝ kind) (fun _ _ => (T : ℝ)) (⟨a, b, c⟩, ⟨1, 0, 0, 0⟩) := by
  refine ⟨c + 7, c + 10, fun v hv => ?_, by norm_num, fun i j _ _ => ?_⟩
  · obtain ⟨-, -, z1, z2⟩ := rBody_vertices sqrtLaw_real kind a b c v hv
    norm_num [rGrid, idx]
    constructor <;> linarith
  · norm_num [heightOf, rGrid]
    linarith

/-- C45 and C43: a bucket or blade moved in the air over flat ground. The steps return, and the second
one finds the terrain at rest. -/
example (kind : BodyKind) (T : ℤ) (rng : Rng) (a b c a' b' c' : ℝ) (ha : |a| ≤ 4) (hb : |b| ≤ 5)
    (hc : |c| ≤ 6) (ha' : |a'| ≤ 4) (hb' : |b'| ≤ 5) (hc' : |c'| ≤ 6)
    (hT : (T : ℝ) ≤ c - 5) (hT' : (T : ℝ) ≤ c' - 5) :
    ∃ N, ∀ fuel, N ≤ fuel → ∃ r, step fuel ⟨a, b, c⟩ ⟨1, 0, 0, 0⟩ (rGrid ℝ) (rBody ℝ kind) wideParam
        (1 / 100000) (flatGround T rng) = .ok r ∧
      r.world.out.terrain = (flatGround T rng).out.terrain ∧
      ∃ N', ∀ fuel', N' ≤ fuel' → ∃ r', step fuel' ⟨a', b', c'⟩ ⟨1, 0, 0, 0⟩ (rGrid ℝ) r.body wideParam
        (1 / 100000) r.world = .ok r' ∧
        (fuel' = fuel → r'.updated = true →
          TerrainAtRest (rGrid ℝ) wideParam (1 / 100000) r'.world.out) := by
  have hin := rBody_inside sqrtLaw_real kind a b c ha hb hc
  have hin' := rBody_inside sqrtLaw_real kind a' b' c' ha' hb' hc'
  have hst : Start (rGrid ℝ) (flatGround T rng).out := rStart fun _ _ => T
  have hp1 : 1 ≤ wideParam.maxIterations := by norm_num [wideParam, rParam]
  have hca := flatGround_calm wideParam wideSetup.repose T rng
  obtain ⟨N, hN⟩ := step_ok sqrtLaw_real wideSetup (by norm_num [rGrid]) ⟨a, b, c⟩ ⟨1, 0, 0, 0⟩
    (rBody ℝ kind) (fun v hv => (hin v hv).1) (fun v hv => (hin v hv).2) (flatGround T rng) hst.sound
    (fun e he => by simp [flatGround, mkSimOut] at he)
  refine ⟨N, fun fuel hf => ?_⟩
  obtain ⟨r, hr⟩ := hN fuel hf
  obtain ⟨t1, e1, -⟩ := C45_step sqrtLaw_real _ _ _ wideSetup hp1 fuel ⟨a, b, c⟩ ⟨1, 0, 0, 0⟩
    (rBody ℝ kind) (fun v hv => (hin v hv).1) (flatGround T rng) hst.sound hst.noEntry hca
    (rBody_above kind a b c T hT) r hr
  refine ⟨r, hr, t1, ?_⟩
  obtain ⟨s1, -⟩ := step_sound sqrtLaw_real wideSetup fuel ⟨a, b, c⟩ ⟨1, 0, 0, 0⟩ (rBody ℝ kind)
    (fun v hv => (hin v hv).1) _ hst.sound r hr
  have hbv : bodyVertices (rGrid ℝ) ⟨a', b', c'⟩ ⟨1, 0, 0, 0⟩ r.body =
      bodyVertices (rGrid ℝ) ⟨a', b', c'⟩ ⟨1, 0, 0, 0⟩ (rBody ℝ kind) := by
    cases hu : r.updated with
    | false => rw [((C12_step _ _ _ _ _ _ _ _ r hr).1 hu).2]
    | true => rw [((C12_step _ _ _ _ _ _ _ _ r hr).2 hu)]; rfl
  obtain ⟨N', hN'⟩ := step_ok sqrtLaw_real wideSetup (by norm_num [rGrid]) ⟨a', b', c'⟩ ⟨1, 0, 0, 0⟩
    r.body (fun v hv => by rw [hbv] at hv; exact (hin' v hv).1)
    (fun v hv => by rw [hbv] at hv; exact (hin' v hv).2) r.world s1
    (fun e he => by rw [e1] at he; simp at he)
  refine ⟨N', fun fuel' hf' => ?_⟩
  obtain ⟨r', hr'⟩ := hN' fuel' hf'
  refine ⟨r', hr', fun hff hu => ?_⟩
  subst hff
  have hoff : ∀ x ∈ [((⟨a, b, c⟩, ⟨1, 0, 0, 0⟩) : Vec3 ℝ × Quat ℝ)] ++ [(⟨a', b', c'⟩, ⟨1, 0, 0, 0⟩)],
      PoseOff (rGrid ℝ) (rBody ℝ kind) x := by
    intro x hx
    simp only [List.cons_append, List.nil_append, List.mem_cons, List.not_mem_nil, or_false] at hx
    rcases hx with rfl | rfl
    · exact fun v hv => (hin v hv).1
    · exact fun v hv => (hin' v hv).1
  refine C43_at_rest sqrtLaw_real _ _ _ wideSetup (by norm_num [wideParam]) (by omega) fuel'
    [(⟨a, b, c⟩, ⟨1, 0, 0, 0⟩)] (⟨a', b', c'⟩, ⟨1, 0, 0, 0⟩) (rBody ℝ kind) r.body hoff
    (flatGround T rng) r.world r' hst ?_ ?_ ?_ hr' hu
  · intro i j hij
    unfold Reachable at hij
    unfold Area.Has
    simp only [flatGround, mkSimOut]
    omega
  · refine (run_idle sqrtLaw_real wideSetup hp1 fuel' _ (rBody ℝ kind) hoff _ hst.sound hst.noEntry
      hca ?_).1
    intro x hx
    simp only [List.cons_append, List.nil_append, List.mem_cons, List.not_mem_nil, or_false] at hx
    rcases hx with rfl | rfl
    · exact rBody_above kind a b c T hT
    · exact rBody_above kind a' b' c' T hT'
  · unfold run
    rw [hr, ok_bind]
    rfl

end Soil

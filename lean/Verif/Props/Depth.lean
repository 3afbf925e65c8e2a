import Verif.Proof.Depth
import Verif.Props.Above

/-! # C52: the terrain is never dug deeper than the body reaches -/

set_option linter.unusedSectionVars false

namespace Soil

section Exact

variable {K : Type} [Field K] [LinearOrder K] [FloorRing K] [Transc K] [IsStrictOrderedRing K]

/-- **C52**, one step. -/
theorem C52_step (hs : SqrtLaw K) (g : Grid K) (p : SimParam K) (tol : K) (S : Setup g p tol)
    (fuel : ℕ) (pos : Vec3 K) (ori : Quat K) (body : Body K) (hoff : PoseOff g body (pos, ori))
    (w : World K) (h : Sound g w.out) (L : K) (hL : ∀ i j, w.out.InGrid i j → L ≤ w.out.terrain i j)
    (hd : ReachesTo g tol body L (pos, ori)) (r : StepResult K)
    (hr : step fuel pos ori g body p tol w = .ok r) :
    ∀ i j, r.world.out.InGrid i j → L ≤ r.world.out.terrain i j := by
  obtain ⟨zlo, zhi, hz, hsm, hl⟩ := hd
  refine step_floor hs S fuel pos ori body hoff w h L hL ?_ r hr
  intro s' h' i j x hij hx
  exact hl.trans (C44_heights hs fuel w.out s' pos ori g body p tol S.zgrid S.cellXY S.level S.tolPos
    S.tolThird S.buffer h.size h.inArea h.wf.bodyOK.al hoff zlo zhi hz hsm h' i j x hij hx).1

/-- **C52**, histories. Whatever the body does, and however the soil slides: no terrain is ever lower
than the lowest terrain at the beginning, or two cells below the lowest vertex of the body in all
poses. -/
theorem C52_history (hs : SqrtLaw K) (g : Grid K) (p : SimParam K) (tol : K) (S : Setup g p tol)
    (fuel : ℕ) (qs : List (Vec3 K × Quat K)) (body body' : Body K)
    (hoff : ∀ q ∈ qs, PoseOff g body q) (w w' : World K) (h : Start g w.out) (L : K)
    (hL : ∀ i j, w.out.InGrid i j → L ≤ w.out.terrain i j)
    (hd : ∀ q ∈ qs, ReachesTo g tol body L q) (hr : run fuel g p tol qs body w = .ok (body', w')) :
    ∀ i j, w'.out.InGrid i j → L ≤ w'.out.terrain i j := by
  suffices H : ∀ (qs : List (Vec3 K × Quat K)) (body : Body K) (w : World K), Sound g w.out →
      (∀ q ∈ qs, PoseOff g body q ∧ ReachesTo g tol body L q) →
      (∀ i j, w.out.InGrid i j → L ≤ w.out.terrain i j) →
      Post (run fuel g p tol qs body w) fun r => ∀ i j, r.2.out.InGrid i j → L ≤ r.2.out.terrain i j from
    H qs body w h.sound (fun q hq => ⟨hoff q hq, hd q hq⟩) hL _ hr
  intro qs
  induction qs with
  | nil => exact fun body w _ _ hL => Post.ok hL
  | cons q qs ih =>
    intro body w h hq hL
    obtain ⟨pos, ori⟩ := q
    unfold run
    intro r hr
    obtain ⟨r1, h1, h2⟩ := bind_eq_ok.mp hr
    obtain ⟨q1, q2⟩ := hq _ List.mem_cons_self
    have s1 := (step_sound hs S fuel pos ori body q1 w h r1 h1).1
    have hb : r1.body = body ∨ r1.body = { body with pos := pos, ori := ori } := by
      cases hu : r1.updated with
      | false => exact .inl ((C12_step fuel pos ori g body p tol w r1 h1).1 hu).2
      | true => exact .inr ((C12_step fuel pos ori g body p tol w r1 h1).2 hu)
    refine ih r1.body r1.world s1 (fun q hm => ?_)
      (C52_step hs g p tol S fuel pos ori body q1 w h L hL q2 r1 h1) r h2
    rcases hb with e | e <;> rw [e] <;> exact hq q (List.mem_cons_of_mem _ hm)

end Exact

/-! ## The hypotheses can be met -/

theorem rBody_reaches (kind : BodyKind) (a b c L : ℝ) (hL : L ≤ c - 4) :
    ReachesTo (rGrid ℝ) (1 / 100000) (rBody ℝ kind) L (⟨a, b, c⟩, ⟨1, 0, 0, 0⟩) := by
  refine ⟨c + 7, c + 10, fun v hv => ?_, by norm_num, ?_⟩
  · obtain ⟨-, -, z1, z2⟩ := rBody_vertices sqrtLaw_real kind a b c v hv
    norm_num [rGrid, idx]
    constructor <;> linarith
  · norm_num [heightOf, rGrid]
    linarith

/-- C52: a bucket or blade is put into flat ground, anywhere in the middle of the grid and however deep.
The step returns, and the terrain is nowhere below the ground by more than the depth of the tip and two
cells. -/
example (kind : BodyKind) (T : ℤ) (rng : Rng) (a b c : ℝ) (ha : |a| ≤ 4) (hb : |b| ≤ 5) (hc : |c| ≤ 6) :
    ∃ N, ∀ fuel, N ≤ fuel → ∃ r, step fuel ⟨a, b, c⟩ ⟨1, 0, 0, 0⟩ (rGrid ℝ) (rBody ℝ kind) wideParam
        (1 / 100000) (flatGround T rng) = .ok r ∧
      ∀ i j, r.world.out.InGrid i j → min (T : ℝ) (c - 4) ≤ r.world.out.terrain i j := by
  have hin := rBody_inside sqrtLaw_real kind a b c ha hb hc
  have hst : Start (rGrid ℝ) (flatGround T rng).out := rStart fun _ _ => T
  obtain ⟨N, hN⟩ := step_ok sqrtLaw_real wideSetup (by norm_num [rGrid]) ⟨a, b, c⟩ ⟨1, 0, 0, 0⟩
    (rBody ℝ kind) (fun v hv => (hin v hv).1) (fun v hv => (hin v hv).2) (flatGround T rng) hst.sound
    (fun e he => by simp [flatGround, mkSimOut] at he)
  refine ⟨N, fun fuel hf => ?_⟩
  obtain ⟨r, hr⟩ := hN fuel hf
  exact ⟨r, hr, C52_step sqrtLaw_real _ _ _ wideSetup fuel ⟨a, b, c⟩ ⟨1, 0, 0, 0⟩ (rBody ℝ kind)
    (fun v hv => (hin v hv).1) (flatGround T rng) hst.sound _ (fun i j _ => min_le_left _ _)
    (rBody_reaches kind a b c _ (min_le_right _ _)) r hr⟩

end Soil

import Verif.Proof.Record
import Verif.Proof.History
import Verif.Props.Opening
import Verif.Props.Quaternion
import Verif.Props.Step
import Verif.Spec.Record

/-! # C47: the records of body soil mark points of the body surface -/

set_option linter.unusedSectionVars false

namespace Soil

section

variable {K : Type} [Field K] [LinearOrder K] [FloorRing K] [Transc K] [IsStrictOrderedRing K]

theorem Holds.pos {g : Grid K} (hc : 0 < g.cellZ) {e : BodySoil K} (h : Holds g e) : 0 < e.h := by
  unfold Holds at h
  simp only [ex_lt, ex_mul, ex_ofRat, decide_eq_false_iff_not, not_lt] at h
  have : (0 : K) < ((9 / 10 : ℚ) : K) * g.cellZ := mul_pos (by norm_num) hc
  exact lt_of_lt_of_le this h

/-- **C47**, one step. After a step, an entry that holds soil either has the body-frame coordinates of
an entry that held soil before the step, or the new pose carries its body-frame coordinates to the
centre of the top of the body layer and column it belongs to. -/
theorem C47_step (hs : SqrtLaw K) (g : Grid K) (p : SimParam K) (tol : K) (S : Setup g p tol)
    (fuel : ℕ) (pos : Vec3 K) (ori : Quat K) (hq : qnormSq ori ≠ 0) (body : Body K)
    (hoff : PoseOff g body (pos, ori)) (w : World K) (h : Sound g w.out) (r : StepResult K)
    (hr : step fuel pos ori g body p tol w = .ok r) :
    ∀ e ∈ r.world.out.bodySoilPos, 0 < e.h →
      (∃ e0 ∈ w.out.bodySoilPos, 0 < e0.h ∧ SameFrame e0 e) ∨
      OnSurface g (pos, ori) r.world.out e e.ind e.ii e.jj := by
  have hS := (step_sound hs S fuel pos ori body hoff w h r hr).1
  intro e he hp
  rcases step_recs fuel pos ori g body p tol w r hr e he with ⟨e0, m0, h1, h2, hx, hy, hz⟩ | ⟨-, ht⟩
  · refine .inl ⟨e0, m0, ?_, hx, hy, hz⟩
    cases hu : r.updated with
    | true => exact (h1 hu).pos S.zgrid.pos
    | false => rw [h2 hu]; exact hp
  · obtain ⟨hg, hk⟩ := hS.wf.soilOK.entries e he
    refine .inr ⟨hk, hg, (hS.wf.soilOK.rest _ _ _ hg hk (hS.wf.soilOK.entry_hasSoil he hp)).1, ?_⟩
    have := C06_body_frame e.ii e.jj (r.world.out.body (e.ind + 1) e.ii e.jj) g
      { body with pos := pos, ori := ori } hq
    unfold AtTop at ht
    rw [← ht] at this
    exact this

theorem run_append {F : Type} [FOps F] (fuel : ℕ) (g : Grid F) (p : SimParam F) (tol : F)
    (l l' : List (Vec3 F × Quat F)) (body : Body F) (w : World F) :
    run fuel g p tol (l ++ l') body w = run fuel g p tol l body w >>= fun x => run fuel g p tol l' x.1 x.2 := by
  induction l generalizing body w with
  | nil => rfl
  | cons q l ih =>
    obtain ⟨pos, ori⟩ := q
    show (step fuel pos ori g body p tol w >>= fun r => run fuel g p tol (l ++ l') r.body r.world) = _
    simp only [ih]
    show _ = (step fuel pos ori g body p tol w >>= fun r => run fuel g p tol l r.body r.world) >>= _
    cases step fuel pos ori g body p tol w <;> rfl

theorem run_body (fuel : ℕ) (g : Grid K) (p : SimParam K) (tol : K) (l : List (Vec3 K × Quat K))
    (body : Body K) (w : World K) :
    Post (run fuel g p tol l body w) fun r => r.1 = { body with pos := r.1.pos, ori := r.1.ori } := by
  induction l generalizing body w with
  | nil => exact Post.ok rfl
  | cons q l ih =>
    obtain ⟨pos, ori⟩ := q
    unfold run
    intro r hr
    obtain ⟨r1, h1, h2⟩ := bind_eq_ok.mp hr
    have := ih _ _ r h2
    cases hu : r1.updated with
    | false => rwa [((C12_step fuel pos ori g body p tol w r1 h1).1 hu).2] at this
    | true => rw [(C12_step fuel pos ori g body p tol w r1 h1).2 hu] at this; exact this

/-- **C47**, any history. For every entry that holds soil after a history there is a moment of the
history at which the pose of that moment carried the body-frame coordinates of the entry to the centre
of the top of a layer of the body: the soil is moved with that point of the body since then. -/
theorem C47_history (hs : SqrtLaw K) (g : Grid K) (p : SimParam K) (tol : K) (S : Setup g p tol)
    (fuel : ℕ) (qs : List (Vec3 K × Quat K)) (body body' : Body K) (hoff : ∀ q ∈ qs, PoseOff g body q)
    (hq : ∀ q ∈ qs, qnormSq q.2 ≠ 0)
    (w w' : World K) (h : Start g w.out) (hr : run fuel g p tol qs body w = .ok (body', w')) :
    ∀ e ∈ w'.out.bodySoilPos, 0 < e.h → ∃ l q l' b1 w1 k i j, qs = l ++ q :: l' ∧
      run fuel g p tol (l ++ [q]) body w = .ok (b1, w1) ∧ OnSurface g q w1.out e k i j := by
  induction qs using List.reverseRecOn generalizing body' w' with
  | nil =>
    cases hr
    intro e he
    rw [h.noEntry] at he
    cases he
  | append_singleton l q ih =>
    have hr' := hr
    rw [run_append] at hr
    obtain ⟨⟨b1, w1⟩, h1, hr⟩ := bind_eq_ok.mp hr
    obtain ⟨pos, ori⟩ := q
    dsimp only at hr
    unfold run at hr
    obtain ⟨r, h2, hr⟩ := bind_eq_ok.mp hr
    unfold run at hr
    cases hr
    have m : (pos, ori) ∈ l ++ [(pos, ori)] := by simp
    have hoff' : ∀ q ∈ l, PoseOff g body q := fun q hq => hoff q (by simp [hq])
    have hb : b1 = { body with pos := b1.pos, ori := b1.ori } := run_body fuel g p tol l body w _ h1
    have hoff2 : PoseOff g b1 (pos, ori) := by
      have := hoff _ m
      rw [hb]
      exact this
    have hsd := (run_sound hs S fuel l body hoff' w h.sound _ h1).1
    intro e he hp
    rcases C47_step hs g p tol S fuel pos ori (hq _ m) b1 hoff2 w1 hsd r h2 e he hp with
      ⟨e0, m0, p0, hx, hy, hz⟩ | hon
    · obtain ⟨l1, q, l2, b2, w2, k, i, j, rfl, hr2, hon⟩ := ih b1 hoff' (fun q hq' => hq q (by simp [hq']))
        w1 h1 e0 m0 p0
      refine ⟨l1, q, l2 ++ [(pos, ori)], b2, w2, k, i, j, by simp, hr2, hon.layer, hon.inGrid, hon.present, ?_⟩
      have := hon.place
      unfold movedTo at this ⊢
      rw [hx, hy, hz]
      exact this
    · exact ⟨l, (pos, ori), [], r.body, r.world, _, _, _, rfl, hr', hon⟩

end

/-! ## The hypotheses can be met

`rSetup`, `rStart` and the example of C36 meet the hypotheses on the history. New records do occur: soil
pushed out of a box onto the rim at column (3,2), where the body ends at height 3. -/

example : ∃ w', moveIntersectingBodySoil 1000 exGrid exBody (1 / 100) (boxWorld 3) = .ok w' ∧
    ∃ e ∈ w'.out.bodySoilPos, 0 < e.h ∧
      OnSurface exGrid (exBody.pos, exBody.ori) w'.out e 0 3 2 ∧ ∀ e0 ∈ (boxWorld 3).out.bodySoilPos,
        ¬ SameFrame e0 e := by
  have h : (match moveIntersectingBodySoil 1000 exGrid exBody (1 / 100) (boxWorld 3) with
    | .ok w' => decide (∃ e ∈ w'.out.bodySoilPos, 0 < e.h ∧
      (((0 : ℤ) ≤ 3 ∧ 3 < w'.out.lenX ∧ (0 : ℤ) ≤ 2 ∧ 2 < w'.out.lenY) ∧ w'.out.body 1 3 2 ≠ 0 ∧
      (movedTo exBody.pos exBody.ori e).x = exGrid.vectX 3 ∧
      (movedTo exBody.pos exBody.ori e).y = exGrid.vectY 2 ∧
      (movedTo exBody.pos exBody.ori e).z = w'.out.body 1 3 2) ∧ ∀ e0 ∈ (boxWorld 3).out.bodySoilPos,
        ¬ (e.xb = e0.xb ∧ e.yb = e0.yb ∧ e.zb = e0.zb))
    | .error _ => false) = true := by decide +kernel
  revert h
  generalize moveIntersectingBodySoil 1000 exGrid exBody (1 / 100) (boxWorld 3) = r
  intro h
  match r, h with
  | .ok w', h =>
    obtain ⟨e, he, hp, ⟨a1, a2, a3, a4, a5⟩, a6⟩ := of_decide_eq_true h
    refine ⟨w', rfl, e, he, hp, ⟨.inl rfl, a1, .inr a2, ?_⟩, a6⟩
    exact Vec3.ext' a3 a4 a5

end Soil

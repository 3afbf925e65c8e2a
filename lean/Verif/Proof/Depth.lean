import Verif.Proof.Avalanche
import Verif.Proof.Rest

/-! # How deep the terrain can be dug -/

set_option linter.unusedSectionVars false
set_option linter.unusedSimpArgs false

namespace Soil

variable {K : Type} [Field K] [LinearOrder K] [FloorRing K] [Transc K] [IsStrictOrderedRing K]

/-- no column of terrain is lowered -/
def TerrainUp (s s' : SimOut K) : Prop := ∀ i j, s.terrain i j ≤ s'.terrain i j

theorem TerrainUp.refl (s : SimOut K) : TerrainUp s s := fun _ _ => le_rfl

theorem TerrainUp.trans {a b c : SimOut K} (h : TerrainUp a b) (h' : TerrainUp b c) : TerrainUp a c :=
  fun i j => (h i j).trans (h' i j)

theorem TerrainUp.of_eq {s s' : SimOut K} (ht : s'.terrain = s.terrain) : TerrainUp s s' :=
  fun i j => by rw [ht]

theorem TerrainUp.setT {s : SimOut K} {i j : ℤ} {v : K} (hv : s.terrain i j ≤ v) : TerrainUp s (s.setT i j v) := by
  intro a b
  show _ ≤ upd2 s.terrain i j v a b
  unfold upd2
  split_ifs with hc
  · obtain ⟨rfl, rfl⟩ := hc; exact hv
  · exact le_rfl

theorem moveBodySoil_up (s : SimOut K) (q : Probe K) (maxH : K) (i j : ℤ) (g : Grid K)
    (body : Body K) (tol : K) (hq : 0 ≤ q.h) : TerrainUp s (moveBodySoil s q maxH i j g body tol).1 := by
  have h1 : ∀ k, TerrainUp s (moveBodySoil1 s q maxH i j g body tol k).1 := by
    intro k
    unfold moveBodySoil1
    dsimp only
    split_ifs
    · exact .setT (by rw [ex_add]; linarith)
    · exact .refl _
    · exact .of_eq rfl
    · exact .of_eq rfl
  have h2 : ∀ k k', TerrainUp s (moveBodySoil2 s q i j g body tol k k').1 := by
    intro k k'
    unfold moveBodySoil2
    dsimp only
    split_ifs
    · exact .refl _
    all_goals exact .of_eq rfl
  unfold moveBodySoil
  split_ifs
  · exact .setT (by rw [ex_add]; linarith)
  · exact h1 _
  · exact h1 _
  · exact h2 _ _
  · exact h2 _ _

theorem exploreDir_up (g : Grid K) (body : Body K) (tol : K) (ht : 0 ≤ tol) (ii jj : ℤ)
    (d : ℤ × ℤ) (fuel : ℕ) (pp : ℤ) (s : SimOut K) (q : Probe K) (maxH : K) :
    Post (exploreDir g body tol ii jj d fuel pp s q maxH) fun x => TerrainUp s x.1 := by
  induction fuel generalizing pp s q maxH with
  | zero =>
    unfold exploreDir
    split_ifs
    · exact Post.error
    · exact Post.ok (.refl s)
  | succ n ih =>
    unfold exploreDir
    split_ifs with hc
    · simp only [Bool.and_eq_true, ex_lt, decide_eq_true_eq] at hc
      refine Post.guard fun hg => ?_
      have r1 := moveBodySoil_up s q maxH (ii + (pp + 1) * d.1) (jj + (pp + 1) * d.2) g body tol
        (ht.trans hc.2.le)
      dsimp only
      generalize moveBodySoil s q maxH (ii + (pp + 1) * d.1) (jj + (pp + 1) * d.2) g body tol = x at *
      obtain ⟨s1, q1⟩ := x
      exact (ih (pp + 1) s1 q1 _).mono fun x hx => r1.trans hx
    · exact Post.ok (.refl s)

theorem exploreDirs_up (fuel : ℕ) (g : Grid K) (body : Body K) (tol : K) (ht : 0 ≤ tol)
    (ind indT : ℕ) (ii jj : ℤ) (ds : List (ℤ × ℤ)) (s : SimOut K) (h : K) :
    Post (exploreDirs fuel g body tol ind indT ii jj ds s h) fun x => TerrainUp s x.1 := by
  induction ds generalizing s h with
  | nil => exact Post.ok (.refl s)
  | cons d ds ih =>
    unfold exploreDirs
    refine (exploreDir_up g body tol ht ii jj d fuel 0 s _ _).bind ?_
    rintro ⟨s1, h1⟩ r1
    dsimp only at r1 ⊢
    split_ifs
    · exact Post.ok r1
    · exact (ih s1 h1).mono fun x hx => r1.trans hx

theorem moveIntersectingEntries_up (fuel : ℕ) (g : Grid K) (body : Body K) (tol : K) (ht : 0 ≤ tol)
    (fuelN nn : ℕ) (ds : List (ℤ × ℤ)) (w : World K) :
    Post (moveIntersectingEntries fuel g body tol fuelN nn ds w) fun w' => TerrainUp w.out w'.out := by
  induction fuelN generalizing nn ds w with
  | zero =>
    unfold moveIntersectingEntries
    cases w.out.bodySoilPos[nn]? with
    | none => exact Post.ok (.refl _)
    | some e => exact Post.error
  | succ n ih =>
    unfold moveIntersectingEntries
    cases hn : w.out.bodySoilPos[nn]? with
    | none => exact Post.ok (.refl _)
    | some e =>
      dsimp only
      refine Post.guard fun ⟨hij, hk⟩ => ?_
      generalize hot : (if e.ind = 0 then 2 else 0) = ot at *
      split_ifs with c1 c2 c3
      all_goals first
        | exact ih _ _ w
        | skip
      all_goals
        dsimp only
        refine Post.bind (exploreDirs_up fuel g body tol ht e.ind ot e.ii e.jj _ _ _) ?_
        rintro ⟨s1, h1⟩ r1
        have r2 : TerrainUp w.out s1 := r1
        split_ifs
        all_goals
          exact (ih _ _ _).mono fun x hx => r2.trans hx

theorem updateEntries_up (pos : Vec3 K) (ori : Quat K) (g : Grid K) (body : Body K) (tol : K)
    (hc : 0 < g.cellZ) (l : List (BodySoil K)) (hl : ∀ e ∈ l, Al g.cellZ e.h ∧ 0 ≤ e.h)
    (w : World K) : Post (updateEntries pos ori g body tol l w) fun w' => TerrainUp w.out w'.out := by
  induction l generalizing w with
  | nil => exact Post.ok (.refl _)
  | cons e l ih =>
    obtain ⟨ha, h0⟩ := hl e List.mem_cons_self
    unfold updateEntries
    refine Post.bind (updateEntry_spec pos ori g body tol e w hc ha h0) ?_
    intro w1 h1
    refine (ih (fun x hx => hl x (List.mem_cons_of_mem _ hx)) w1).mono fun x hx => TerrainUp.trans ?_ hx
    cases h1 with
    | zero => exact .refl _
    | placed => exact .of_eq rfl
    | dropped h _ _ => exact .setT (by linarith)

theorem updateBodySoil_up (pos : Vec3 K) (ori : Quat K) (g : Grid K) (body : Body K) (tol : K)
    (hc : 0 < g.cellZ) (w : World K) (hS : Stored g.cellZ w.out) :
    Post (updateBodySoil pos ori g body tol w) fun x => TerrainUp w.out x.1.out := by
  unfold updateBodySoil
  dsimp only
  refine Post.bind (resetBodySoil_spec _ _ hS.entries).post ?_
  rintro s ⟨h1, -, -⟩
  refine Post.bind (updateEntries_up pos ori g body tol hc _
    (fun e he => ⟨hS.entry_al e he, hS.entry_nonneg e he⟩) _) ?_
  intro w1 h2
  refine Post.ok (TerrainUp.trans ?_ h2)
  exact .of_eq (by dsimp only; rw [h1])

/-- no terrain below `L` -/
def Floor (L : K) (s : SimOut K) : Prop := ∀ i j, s.InGrid i j → L ≤ s.terrain i j

/-- One step digs at most down to the body. -/
theorem step_floor (hs : SqrtLaw K) {g : Grid K} {p : SimParam K} {tol : K} (S : Setup g p tol)
    (fuel : ℕ) (pos : Vec3 K) (ori : Quat K) (body : Body K) (hoff : PoseOff g body (pos, ori))
    (w : World K) (h : Sound g w.out) (L : K) (hL : Floor L w.out)
    (hb : ∀ s', calcBodyPos fuel w.out pos ori g body p tol = .ok s' → ∀ i j x, s'.InGrid i j →
      Occ s' i j x → L ≤ x) :
    Post (step fuel pos ori g body p tol w) fun r => Floor L r.world.out := by
  intro r hr
  unfold step at hr
  rcases hc : checkBodyMovement pos ori g body with ⟨moved, warns⟩
  rw [hc] at hr
  dsimp only at hr
  cases moved with
  | false =>
    simp only [Bool.not_false, if_true, pure_eq_ok, Except.ok.injEq] at hr
    subst hr
    exact hL
  | true =>
    simp only [Bool.not_true, Bool.false_eq_true, if_false] at hr
    obtain ⟨s, h1, hr⟩ := bind_eq_ok.mp hr
    obtain ⟨⟨w2, b2⟩, h2, hr⟩ := bind_eq_ok.mp hr
    obtain ⟨w3, h3, hr⟩ := bind_eq_ok.mp hr
    obtain ⟨⟨w4, it⟩, h4, hr⟩ := bind_eq_ok.mp hr
    simp only [pure_eq_ok, Except.ok.injEq] at hr
    subst hr
    dsimp only
    obtain ⟨s3, -⟩ := step_mid hs S pos ori body hoff w h h1 h2 h3
    have N := calcBodyPos_post hs S.zgrid S.cellXY S.level S.tolPos S.tolThird S.buffer h.size h.inArea
      h.wf.bodyOK.al hoff h1
    have hst : Stored g.cellZ s := by
      obtain ⟨b, a, rfl⟩ : ∃ b a, s = { w.out with body := b, bodyArea := a } := ⟨_, _, N.eq⟩
      have := h.wf.soilOK.stored
      exact ⟨this.1, this.2, this.3, this.4, this.5, this.6, this.7⟩
    have f1 : Floor L s := by
      obtain ⟨b, a, rfl⟩ : ∃ b a, s = { w.out with body := b, bodyArea := a } := ⟨_, _, N.eq⟩
      exact hL
    have lc2 := (updateBodySoil_loc _ _ _ _ _ _ _ h2).1
    have u2 := updateBodySoil_up pos ori g body tol S.zgrid.pos _ hst _ h2
    have S2 := (updateBodySoil_spec pos ori g body tol S.zgrid.pos _ N.bodyOK hst _ h2).2.2.1
    have B2 : BodyOK g.cellZ w2.out := N.bodyOK.congr lc2.body.1 lc2.body.2.2.1 lc2.body.2.2.2
    -- pushing body soil out, then terrain
    unfold moveIntersectingCells at h3
    obtain ⟨w5, h5, h6⟩ := bind_eq_ok.mp h3
    have u5 := moveIntersectingEntries_up _ _ _ _ S.tolPos.le _ _ _ _ _ h5
    obtain ⟨lc5, S5, -⟩ := moveIntersectingBodySoil_post _ _ _ S.tolOK w2 w5 B2 S2 h5
    have B5 : BodyOK g.cellZ w5.out := B2.congr lc5.body.1 lc5.body.2.2.1 lc5.body.2.2.2
    have sb : SameBody s w5.out := SameBody.trans lc2.body lc5.body
    have ig : ∀ i j, w5.out.InGrid i j → s.InGrid i j := by
      intro i j hij
      unfold SimOut.InGrid at hij ⊢
      rwa [sb.2.2.1, sb.2.2.2] at hij
    have f5 : Floor L w5.out := fun i j hij =>
      ((f1 i j (ig i j hij)).trans (u2 i j)).trans (u5 i j)
    obtain ⟨P, -, -⟩ := moveIntersectingBody_pushed S.tolOK _ w5 B5.al S5.terrain_al w3 h6
    have f3 : Floor L w3.out := by
      intro i j hij
      have hij5 := (P.inGrid i j).mp hij
      rcases lt_or_ge (w3.out.terrain i j) (w5.out.terrain i j) with hlt | hge
      · obtain ⟨k, hk, hB, -, he⟩ := P.lower i j hij5 hlt
        rw [he]
        refine hb s h1 i j _ (ig i j hij5) ⟨k, hk, ?_, ?_, ?_⟩
        · unfold HasBody at hB ⊢; rwa [sb.1] at hB
        · rw [sb.1]
        · rw [← sb.1]; exact (B5.order k i j hij5 hk hB).le
      · exact (f5 i j hij5).trans hge
    have hd0 : 0 ≤ dhMax g p := dhMax_nonneg g p S.zgrid.pos S.cellXY.le S.repose
    exact (relaxLoop_avalanches S.tolOK hd0 b2 fuel 0 _ (s3.wf.setEq false) _ h4).2.lowest S.zgrid.pos
      hd0 L f3

end Soil

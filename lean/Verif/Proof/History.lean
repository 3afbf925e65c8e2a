import Verif.Spec.History
import Verif.Proof.BodyPos
import Verif.Proof.Transport
import Verif.Proof.InterS
import Verif.Proof.RelaxB
import Verif.Proof.Shuffle
import Verif.Proof.Checks
import Verif.Props.Intersect
import Verif.Props.Avalanche
import Verif.Props.Checks
import Verif.Props.Step
import Verif.Props.Equilibrium

/-!
# One step preserves the invariant
-/

set_option linter.unusedSectionVars false
set_option linter.unusedSimpArgs false

namespace Soil

variable {K : Type} [Field K] [LinearOrder K] [FloorRing K] [Transc K] [IsStrictOrderedRing K]

theorem WellFormed.perm {c : K} {s : SimOut K} (h : WellFormed c s) {l : List (BodySoil K)}
    (hl : l.Perm s.bodySoilPos) : WellFormed c { s with bodySoilPos := l } := by
  refine ⟨h.bodyOK.congr rfl rfl rfl, ?_, h.terrainFree, h.soilFree⟩
  have S := h.soilOK
  refine ⟨S.terrain_al, S.soil_al, S.rest, fun e he => S.entries e (hl.mem_iff.mp he),
    fun e he => S.entry_al e (hl.mem_iff.mp he), fun e he => S.entry_nonneg e (hl.mem_iff.mp he), ?_, ?_⟩
  · intro i j hij k hk
    rw [entrySum_perm hl]
    exact S.booked i j hij k hk
  · intro k i j hij hk hs
    obtain ⟨e, he, h'⟩ := S.listed k i j hij hk hs
    exact ⟨e, hl.mem_iff.mpr he, h'⟩

theorem shuffleEntries_wf {c : K} {w : World K} (h : WellFormed c w.out) :
    WellFormed c (shuffleEntries w).out := by
  unfold shuffleEntries
  dsimp only
  exact h.perm (shuffle_perm _ _)

theorem Setup.tolOK {g : Grid K} {p : SimParam K} {tol : K} (S : Setup g p tol) : TolOK g.cellZ tol :=
  ⟨S.tolPos, S.tolCell⟩

theorem Setup.dh {g : Grid K} {p : SimParam K} {tol : K} (S : Setup g p tol) : 0 ≤ dhMax g p :=
  dhMax_nonneg g p S.zgrid.pos S.cellXY.le S.repose

theorem Sound.congr {g : Grid K} {s s' : SimOut K} (h : Sound g s) (hw : WellFormed g.cellZ s')
    (hb : SameBody s s') (hr : AreaInside s'.relaxArea s') : Sound g s' := by
  obtain ⟨b1, b2, b3, b4⟩ := hb
  refine ⟨hw, ?_, ?_, hr, ?_⟩
  · intro k i j hij hk hB
    rw [b2]
    refine h.inArea k i j ?_ hk ?_
    · unfold SimOut.InGrid at hij ⊢; rwa [b3, b4] at hij
    · unfold HasBody at hB ⊢; rwa [b1] at hB
  · have := h.area
    unfold AreaInside at this ⊢
    rwa [b2, b3, b4]
  · have := h.size
    unfold SameSize at this ⊢
    rwa [b3, b4]

theorem AreaInside.congr {a : Area} {s s' : SimOut K} (h : AreaInside a s) (hb : SameBody s s') :
    AreaInside a s' := by
  unfold AreaInside at h ⊢
  rwa [hb.2.2.1, hb.2.2.2]

theorem relaxOnce_sound {g : Grid K} {p : SimParam K} {tol : K} (S : Setup g p tol) (body : Body K)
    (w : World K) (h : Sound g w.out) :
    Post (relaxOnce g body p tol w) fun w' => Sound g w'.out ∧
      totalSoil w'.out = totalSoil w.out := by
  intro w' hw
  have hw0 := hw
  unfold relaxOnce at hw
  obtain ⟨w1, h1, h2⟩ := bind_eq_ok.mp hw
  have h0 : WellFormed g.cellZ (w.mapOut fun s => { s with impactArea := impactOf s }).out :=
    h.wf.congr rfl rfl rfl rfl rfl rfl
  have f1 := relaxTerrain_wf g body p tol S.tolOK _ h0 w1 h1
  have c1 := (relaxTerrain_conserves g body p tol _ w1 h1).total
  have f2 := shuffleEntries_wf f1
  obtain ⟨f3, c3⟩ := relaxBodySoil_wf g body p tol S.tolOK S.dh _ f2 w' h2
  have r1 := (C33_areas g body p tol (w.mapOut fun s => { s with impactArea := impactOf s }) w1
    h.size.1 h.size.2 h.area h.relax h1).1
  obtain ⟨sb, -, r2, -⟩ := relaxBodySoil_frame _ _ _ _ _ _ h2
  refine ⟨h.congr f3 (relaxOnce_frame _ _ _ _ _ _ hw0).1 ?_, c3.trans c1⟩
  rw [r2]
  exact AreaInside.congr (s := (shuffleEntries w1).out) r1 sb

theorem Sound.setEq {g : Grid K} {s : SimOut K} (h : Sound g s) (v : Bool) :
    Sound g { s with equilibrium := v } :=
  ⟨h.wf.setEq v, h.inArea, h.area, h.relax, h.size⟩

theorem relaxLoop_sound {g : Grid K} {p : SimParam K} {tol : K} (S : Setup g p tol) (body : Body K)
    (fuel : ℕ) (it : ℤ) (w : World K) (h : Sound g w.out) :
    Post (relaxLoop g body p tol fuel it w) fun x => Sound g x.1.out ∧
      totalSoil x.1.out = totalSoil w.out := by
  induction fuel generalizing it w with
  | zero =>
    unfold relaxLoop
    split_ifs
    · exact Post.error
    · exact Post.ok ⟨h, rfl⟩
  | succ n ih =>
    unfold relaxLoop
    split_ifs
    · refine (relaxOnce_sound S body w h).bind fun w1 h1 => ?_
      exact (ih _ w1 h1.1).mono fun x hx => ⟨hx.1, hx.2.trans h1.2⟩
    · exact Post.ok ⟨h, rfl⟩

theorem moveIntersectingCells_post {fuel : ℕ} {g : Grid K} {body : Body K} {tol : K}
    (t : TolOK g.cellZ tol) {w w' : World K} (hB : BodyOK g.cellZ w.out) (hS : SoilOK g.cellZ w.out)
    (hA : BodyInArea w.out) (h : moveIntersectingCells fuel g body tol w = .ok w') :
    WellFormed g.cellZ w'.out ∧ ∃ m, w'.log = w.log ++ m ∧
      (∀ x ∈ m, ∃ h, 0 < h ∧ x = .soilRemoved h) ∧
      totalSoil w'.out + removedSoil m = totalSoil w.out := by
  unfold moveIntersectingCells at h
  obtain ⟨w1, h1, h2⟩ := bind_eq_ok.mp h
  obtain ⟨l1, s1, f1, m, e1, e2, e3⟩ := moveIntersectingBodySoil_post fuel g body t w w1 hB hS h1
  obtain ⟨b1, b2, b3, b4⟩ := l1.body
  have B1 : BodyOK g.cellZ w1.out := hB.congr b1 b3 b4
  obtain ⟨p2, l2, -⟩ := moveIntersectingBody_pushed t fuel w1 B1.al s1.terrain_al w' h2
  have tf := C22_terrain_free fuel g.cellZ tol w1 w' t.pos t.lt B1.al s1.terrain_al (by
    intro k i j hij hk hb
    rw [b2]
    refine hA k i j ?_ hk ?_
    · unfold SimOut.InGrid at hij ⊢; rwa [b3, b4] at hij
    · unfold HasBody at hb ⊢; rwa [b1] at hb) h2
  have hal := p2.al s1.terrain_al
  have htot := p2.total
  have heq := p2.eq
  have hl : w'.log = w.log ++ m := l2.trans e1
  refine ⟨?_, m, hl, e2, by rw [htot, e3]⟩
  generalize w'.out = s' at *
  obtain ⟨T, rfl⟩ : ∃ T, s' = { w1.out with terrain := T } := ⟨_, heq⟩
  exact ⟨B1.congr rfl rfl rfl, ⟨hal, s1.soil_al, s1.rest, s1.entries, s1.entry_al,
    s1.entry_nonneg, s1.booked, s1.listed⟩, tf, f1⟩

theorem removedSoil_replicate (n : ℕ) :
    removedSoil (List.replicate n (.soilToTerrain : Warn K)) = 0 := by
  unfold removedSoil; simp

/-- The state before relaxation -/
theorem step_mid (hs : SqrtLaw K) {g : Grid K} {p : SimParam K} {tol : K} (S : Setup g p tol)
    {fuel fuel' : ℕ} (pos : Vec3 K) (ori : Quat K) (body : Body K) (hoff : PoseOff g body (pos, ori))
    (w : World K) (h : Sound g w.out) {s : SimOut K} {warns : List (Warn K)} {w2 w3 : World K}
    {b2 b3 : Body K} (h1 : calcBodyPos fuel w.out pos ori g body p tol = .ok s)
    (h2 : updateBodySoil pos ori g body tol { w with out := s, log := w.log ++ warns } = .ok (w2, b2))
    (h3 : moveIntersectingCells fuel' g b3 tol w2 = .ok w3) :
    Sound g w3.out ∧ ∃ n m, w3.log = w.log ++ warns ++ List.replicate n .soilToTerrain ++ m ∧
      (∀ x ∈ m, ∃ h, 0 < h ∧ x = .soilRemoved h) ∧
      totalSoil w3.out + removedSoil m = totalSoil w.out ∧
      (n = 0 → w2.out.terrain = w.out.terrain) := by
  have N := calcBodyPos_post hs S.zgrid S.cellXY S.level S.tolPos S.tolThird S.buffer h.size h.inArea
    h.wf.bodyOK.al hoff h1
  have hst : Stored g.cellZ s := by
    obtain ⟨b, a, rfl⟩ : ∃ b a, s = { w.out with body := b, bodyArea := a } := ⟨_, _, N.eq⟩
    have := h.wf.soilOK.stored
    exact ⟨this.1, this.2, this.3, this.4, this.5, this.6, this.7⟩
  have htot1 : totalSoil s = totalSoil w.out := by
    obtain ⟨b, a, rfl⟩ : ∃ b a, s = { w.out with body := b, bodyArea := a } := ⟨_, _, N.eq⟩
    rfl
  have hsz : SameSize g s := by
    obtain ⟨b, a, rfl⟩ : ∃ b a, s = { w.out with body := b, bodyArea := a } := ⟨_, _, N.eq⟩
    exact h.size
  obtain ⟨-, sb2, S2, t2, -, -, n, l2, -, n2⟩ := updateBodySoil_spec pos ori g body tol S.zgrid.pos
    { w with out := s, log := w.log ++ warns } N.bodyOK hst _ h2
  obtain ⟨c1, c2, c3, c4⟩ := sb2
  dsimp only at S2 t2 l2 c1 c2 c3 c4
  have B2 : BodyOK g.cellZ w2.out := N.bodyOK.congr c1 c3 c4
  have A2 : BodyInArea w2.out := by
    intro k i j hij hk hb
    rw [c2]
    refine N.inArea k i j ?_ hk ?_
    · unfold SimOut.InGrid at hij ⊢; rwa [c3, c4] at hij
    · unfold HasBody at hb ⊢; rwa [c1] at hb
  obtain ⟨W3, m, l3, hm, t3⟩ := moveIntersectingCells_post S.tolOK B2 S2 A2 h3
  have lc3 := moveIntersectingCells_loc _ _ _ _ _ _ h3
  have h23 : SameBody s w3.out := SameBody.trans ⟨c1, c2, c3, c4⟩ lc3.body
  have lc2 := (updateBodySoil_loc _ _ _ _ _ _ _ h2).1
  refine ⟨?_, n, m, by rw [l3, l2], hm, by rw [t3, t2, htot1], fun h0 => ?_⟩
  swap
  · rw [n2 h0]
    obtain ⟨b, a, rfl⟩ : ∃ b a, s = { w.out with body := b, bodyArea := a } := ⟨_, _, N.eq⟩
    rfl
  have h23' := h23
  obtain ⟨d1, d2, d3, d4⟩ := h23
  refine ⟨W3, ?_, ?_, ?_, ?_⟩
  · intro k i j hij hk hB
    rw [d2]
    refine N.inArea k i j ?_ hk ?_
    · unfold SimOut.InGrid at hij ⊢; rwa [d3, d4] at hij
    · unfold HasBody at hB ⊢; rwa [d1] at hB
  · have := N.area
    unfold AreaInside at this ⊢
    rwa [d2, d3, d4]
  · rw [lc3.relaxArea, lc2.relaxArea]
    refine AreaInside.congr (s := s) ?_ h23'
    have := h.relax
    obtain ⟨b, a, rfl⟩ : ∃ b a, s = { w.out with body := b, bodyArea := a } := ⟨_, _, N.eq⟩
    exact this
  · unfold SameSize at hsz ⊢
    rwa [d3, d4]

/-- One step preserves the invariant, and the total drops by the removals in the log. -/
theorem step_sound (hs : SqrtLaw K) {g : Grid K} {p : SimParam K} {tol : K} (S : Setup g p tol)
    (fuel : ℕ) (pos : Vec3 K) (ori : Quat K) (body : Body K) (hoff : PoseOff g body (pos, ori))
    (w : World K) (h : Sound g w.out) :
    Post (step fuel pos ori g body p tol w) fun r => Sound g r.world.out ∧
      ∃ m, r.world.log = w.log ++ m ∧ (∀ h, .soilRemoved h ∈ m → 0 < h) ∧ totalSoil r.world.out + removedSoil m = totalSoil w.out := by
  intro r hr
  unfold step at hr
  rcases hc : checkBodyMovement pos ori g body with ⟨moved, warns⟩
  rw [hc] at hr
  dsimp only at hr
  have hw : removedSoil warns = 0 ∧ ∀ h, .soilRemoved h ∈ warns → 0 < h := by
    unfold checkBodyMovement at hc
    dsimp only at hc
    split_ifs at hc <;> cases hc <;> simp [removedSoil]
  obtain ⟨hw, hwp⟩ := hw
  cases moved with
  | false =>
    simp only [Bool.not_false, if_true, pure_eq_ok, Except.ok.injEq] at hr
    subst hr
    exact ⟨h, warns, rfl, hwp, by rw [hw, add_zero]⟩
  | true =>
    simp only [Bool.not_true, Bool.false_eq_true, if_false] at hr
    obtain ⟨s, h1, hr⟩ := bind_eq_ok.mp hr
    obtain ⟨⟨w2, b2⟩, h2, hr⟩ := bind_eq_ok.mp hr
    obtain ⟨w3, h3, hr⟩ := bind_eq_ok.mp hr
    obtain ⟨⟨w4, it⟩, h4, hr⟩ := bind_eq_ok.mp hr
    simp only [pure_eq_ok, Except.ok.injEq] at hr
    subst hr
    obtain ⟨s3, n, m, l3, hm, t3, -⟩ := step_mid hs S pos ori body hoff w h h1 h2 h3
    obtain ⟨s4, t4⟩ := relaxLoop_sound S b2 fuel 0 _ (s3.setEq false) _ h4
    obtain ⟨-, l4⟩ := relaxLoop_frame _ _ _ _ _ _ _ _ h4
    refine ⟨s4, warns ++ List.replicate n .soilToTerrain ++ m, ?_, ?_, ?_⟩
    · dsimp only
      rw [l4]
      show w3.log = _
      rw [l3]
      simp
    · intro x hx
      simp only [List.mem_append, List.mem_replicate, reduceCtorEq, and_false, or_false] at hx
      rcases hx with hx | hx
      · exact hwp x hx
      · obtain ⟨y, hy, e⟩ := hm _ hx
        cases e; exact hy
    · rw [removedSoil_append, removedSoil_append, hw, removedSoil_replicate]
      dsimp only
      rw [t4]
      show totalSoil w3.out + _ = _
      rw [zero_add, zero_add, t3]

/-- The invariant over a history -/
theorem run_sound (hs : SqrtLaw K) {g : Grid K} {p : SimParam K} {tol : K} (S : Setup g p tol)
    (fuel : ℕ) (qs : List (Vec3 K × Quat K)) (body : Body K) (hoff : ∀ q ∈ qs, PoseOff g body q)
    (w : World K) (h : Sound g w.out) :
    Post (run fuel g p tol qs body w) fun r => Sound g r.2.out ∧
      ∃ m, r.2.log = w.log ++ m ∧ (∀ h, .soilRemoved h ∈ m → 0 < h) ∧ totalSoil r.2.out + removedSoil m = totalSoil w.out := by
  induction qs generalizing body w with
  | nil => exact Post.ok ⟨h, [], by simp, by simp, by simp [removedSoil]⟩
  | cons q qs ih =>
    obtain ⟨pos, ori⟩ := q
    unfold run
    intro r hr
    obtain ⟨r1, h1, h2⟩ := bind_eq_ok.mp hr
    obtain ⟨s1, m1, l1, p1, t1⟩ := step_sound hs S fuel pos ori body (hoff _ List.mem_cons_self) w h r1 h1
    have hb : ∀ q, PoseOff g body q → PoseOff g r1.body q := by
      have : r1.body = body ∨ r1.body = { body with pos := pos, ori := ori } := by
        cases hu : r1.updated with
        | false => exact .inl ((C12_step fuel pos ori g body p tol w r1 h1).1 hu).2
        | true => exact .inr ((C12_step fuel pos ori g body p tol w r1 h1).2 hu)
      intro q hq
      rcases this with e | e
      · rwa [e]
      · rw [e]; exact hq
    obtain ⟨s2, m2, l2, p2, t2⟩ := ih r1.body (fun q hq => hb q (hoff q (List.mem_cons_of_mem _ hq)))
      r1.world s1 r h2
    refine ⟨s2, m1 ++ m2, by rw [l2, l1, List.append_assoc], fun x hx => ?_, ?_⟩
    · exact (List.mem_append.mp hx).elim (p1 x) (p2 x)
    rw [removedSoil_append, ← t1, ← t2]
    ring

theorem Start.sound {g : Grid K} {s : SimOut K} (h : Start g s) : Sound g s := by
  have nb : ∀ k i j, ¬ HasBody s k i j := by
    rintro k i j (q | q) <;> exact q (h.body _ _ _)
  have ns : ∀ k i j, ¬ HasSoil s k i j := by
    rintro k i j (q | q) <;> exact q (h.bodySoil _ _ _)
  refine ⟨⟨?_, ?_, ?_, ?_⟩, ?_, h.area, h.relax, h.size⟩
  · refine ⟨fun k i j _ => ?_, fun k i j _ _ q => (nb _ _ _ q).elim, fun i j _ q => (nb _ _ _ q).elim,
      fun k i j _ _ _ => nb _ _ _⟩
    rw [h.body]; exact .zero
  · refine ⟨h.terrain, fun k i j _ => ?_, fun k i j _ _ q => (ns _ _ _ q).elim, ?_, ?_, ?_, ?_,
      fun k i j _ _ q => (ns _ _ _ q).elim⟩
    · rw [h.bodySoil]; exact .zero
    · intro e he; rw [h.noEntry] at he; simp at he
    · intro e he; rw [h.noEntry] at he; simp at he
    · intro e he; rw [h.noEntry] at he; simp at he
    · intro i j _ k _
      unfold layerSoil
      rw [h.bodySoil, h.bodySoil, h.noEntry]
      simp [entrySum]
  · exact fun k i j _ _ q => (nb _ _ _ q).elim
  · exact fun k i j _ _ q => (ns _ _ _ q).elim
  · exact fun k i j _ _ q => (nb _ _ _ q).elim

/-! ## The two checks -/

theorem WellFormed.columnConv {c tol : K} (t : TolOK c tol) {s : SimOut K} (h : WellFormed c s)
    {i j : ℤ} (hij : s.InGrid i j) : ColumnConvEx s tol i j := by
  have hB := h.bodyOK
  have hS := h.soilOK
  have hp := t.pos
  have key : ∀ k, k = 0 ∨ k = 2 → HasBody s (otherLayer k) i j → HasSoil s k i j →
      s.bodySoil (k + 1) i j ≤ s.body (otherLayer k) i j ∨
      s.body (otherLayer k + 1) i j ≤ s.bodySoil k i j := by
    intro k hk ho hsl
    obtain ⟨r1, r2, r3⟩ := hS.rest k i j hij hk hsl
    rcases lt_or_ge (s.body k i j) (s.body (otherLayer k) i j) with hl | hl
    · exact .inl (h.soilFree k i j hij hk hsl ho hl)
    · right
      rw [r2]
      have o1 := hB.order k i j hij hk r1
      rcases hk with rfl | rfl
      · have o2 := hB.order 2 i j hij (.inr rfl) ho
        rcases hB.apart i j hij r1 ho with q | q
        · simp only [otherLayer, if_true] at *; linarith
        · simp only [otherLayer, if_true] at *; linarith
      · have o2 := hB.order 0 i j hij (.inl rfl) ho
        rcases hB.apart i j hij ho r1 with q | q
        · simp only [otherLayer] at *; norm_num at *; linarith
        · simp only [otherLayer] at *; norm_num at *; linarith
  refine ⟨?_, ?_, ?_, ?_, ?_, ?_, ?_, ?_, ?_⟩
  · intro k hk hb
    have := h.terrainFree k i j hij hk hb
    linarith
  · intro k hk hb
    have := (t.add_le (hB.al k i j hij) (hB.al (k + 1) i j hij)).mpr (hB.order k i j hij hk hb)
    linarith
  · intro h0 h2
    rw [t.add_le (hB.al _ i j hij) (hB.al _ i j hij), t.add_le (hB.al _ i j hij) (hB.al _ i j hij)]
    exact hB.apart i j hij h0 h2
  · intro h0 h2
    rcases key 2 (.inr rfl) h0 h2 with q | q
    · right; simp only [otherLayer] at q; norm_num at q; linarith
    · left; simp only [otherLayer] at q; norm_num at q; linarith
  · intro h2 h0
    rcases key 0 (.inl rfl) h2 h0 with q | q
    · left; simp only [otherLayer, if_true] at q; linarith
    · right; simp only [otherLayer, if_true] at q; linarith
  · intro k hk hq
    have := (hS.rest k i j hij hk hq).2.2
    linarith
  · intro k hk hq
    have := (hS.rest k i j hij hk hq).2.1
    linarith
  · intro k hk hq
    exact (hS.rest k i j hij hk hq).1
  · intro k hk hq
    exact (hS.rest k i j hij hk hq).2.1

theorem Sound.checkSoil {g : Grid K} {tol : K} (t : TolOK g.cellZ tol) {s : SimOut K}
    (h : Sound g s) : checkSoil s tol = .ok true := by
  obtain ⟨b, hb, hb'⟩ := C38_checkSoil_iff_exact s tol h.area
  rw [hb, hb'.mpr]
  intro i j a1 a2 a3 a4
  refine h.wf.columnConv t ?_
  obtain ⟨q1, q2, q3, q4⟩ := h.area
  unfold SimOut.InGrid
  omega

theorem totalCells_mul {c : K} (hc : 0 < c) {s : SimOut K}
    (hT : ∀ i j, s.InGrid i j → Al c (s.terrain i j))
    (hS : ∀ k i j, s.InGrid i j → Al c (s.bodySoil k i j)) :
    (totalCells s c : K) * c = totalSoil s := by
  unfold totalCells totalSoil
  push_cast
  rw [Finset.sum_mul]
  refine Finset.sum_congr rfl ?_
  rintro ⟨i, j⟩ hp
  have hij : s.InGrid i j := mem_gridCols.mp hp
  have key : ∀ x : K, Al c x → ((roundAway (x / c) : ℤ) : K) * c = x := by
    rintro x ⟨n, rfl⟩
    rw [mul_div_assoc, div_self hc.ne', mul_one, roundAway_intCast]
  show ((roundAway (s.terrain i j / c) + roundAway (layerSoil s 0 i j / c) +
    roundAway (layerSoil s 2 i j / c) : ℤ) : K) * c = columnSoil s i j
  push_cast
  rw [add_mul, add_mul, key _ (hT i j hij), key (layerSoil s 0 i j) ((hS _ i j hij).sub (hS _ i j hij)),
    key (layerSoil s 2 i j) ((hS _ i j hij).sub (hS _ i j hij))]
  rfl

theorem Sound.checkVolume {g : Grid K} {tol : K} (t : TolOK g.cellZ tol) {s : SimOut K}
    (h : Sound g s) (v : ℤ) (hv : totalSoil s = v * g.cellZ) : checkVolume s v g tol = .ok true := by
  obtain ⟨b, hb, hb'⟩ := C39_checkVolume_iff s v g tol h.wf.soilOK.entries
  rw [hb, hb'.mpr]
  refine ⟨?_, ?_⟩
  · intro i j hij k hk
    rw [h.wf.soilOK.booked i j hij k hk, sub_self, abs_zero]
    exact t.pos.le
  · have e := totalCells_mul t.cpos h.wf.soilOK.terrain_al h.wf.soilOK.soil_al
    rw [hv] at e
    exact_mod_cast mul_right_cancel₀ t.cpos.ne' e

end Soil

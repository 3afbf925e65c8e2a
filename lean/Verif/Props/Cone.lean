import Verif.Proof.Cone
import Verif.Proof.Active
import Verif.Proof.Above
import Verif.Props.Margin

/-! # C57: soil moves only near the body and near slopes that are already unstable -/

set_option linter.unusedSectionVars false

namespace Soil

open FOps

theorem quiet_iff {g : Grid ℝ} {p : SimParam ℝ} {tol : ℝ} {a : Area} {r : ℤ} {s : SimOut ℝ} (hs : SameSize g s) :
    Quiet a (dhMax g p) tol r s ↔ ∀ i j, (1 ≤ i ∧ i < 2 * g.halfX) → (1 ≤ j ∧ j < 2 * g.halfY) →
      Unstable s (reposeStep g p) tol i j → NearRect a r i j := by
  unfold Quiet
  simp only [unstableAt_iff, reposeStep_eq]
  obtain ⟨hx, hy⟩ := hs
  constructor
  · intro h i j hi hj
    refine h i j ?_ ?_ ?_ ?_ <;> (unfold SimOut.InGrid; rw [hx, hy]; omega)
  · intro h i j g1 g2 g3 g4
    unfold SimOut.InGrid at g1 g2 g3 g4
    rw [hx, hy] at g1 g2 g3 g4
    exact h i j (by omega) (by omega)

/-- bounds of a position from the bounds of the vertices -/
theorem Over.bounds {g : Grid ℝ} {a : Area} {body : Body ℝ} {q : Vec3 ℝ × Quat ℝ} (H : Over g a body q)
    {X : Vec3 ℝ} (h : ∀ n, ∃ v ∈ bodyVertices g q.1 q.2 body, dot n X ≤ dot n v + margin g * len n) :
    ((a.minX - g.halfX + 1 / 2) * g.cellXY ≤ X.x ∧ X.x ≤ (a.maxX - g.halfX - 1 / 2) * g.cellXY) ∧
    ((a.minY - g.halfY + 1 / 2) * g.cellXY ≤ X.y ∧ X.y ≤ (a.maxY - g.halfY - 1 / 2) * g.cellXY) := by
  obtain ⟨l1, l2, l3, l4⟩ := len_unit
  obtain ⟨v1, m1, h1⟩ := h ⟨1, 0, 0⟩
  obtain ⟨v2, m2, h2⟩ := h ⟨-1, 0, 0⟩
  obtain ⟨v3, m3, h3⟩ := h ⟨0, 1, 0⟩
  obtain ⟨v4, m4, h4⟩ := h ⟨0, -1, 0⟩
  rw [l1] at h1
  rw [l2] at h2
  rw [l3] at h3
  rw [l4] at h4
  unfold dot at h1 h2 h3 h4
  dsimp only at h1 h2 h3 h4
  have a1 := H.x v1 m1
  have a2 := H.x v2 m2
  have a3 := H.y v3 m3
  have a4 := H.y v4 m4
  refine ⟨⟨?_, ?_⟩, ?_, ?_⟩ <;> linarith

theorem over_on {g : Grid ℝ} {p : SimParam ℝ} {tol : ℝ} (S : Setup g p tol) (C : Centred g)
    (hsm : 18 * tol * ((g.halfX + g.halfY) * g.cellXY + g.halfZ * g.cellZ) ≤ g.cellZ) {a : Area}
    {body : Body ℝ} {pos : Vec3 ℝ} {ori : Quat ℝ} (hq : Clear g body (pos, ori))
    (H : Over g a body (pos, ori)) {fuel : ℕ} {s s' : SimOut ℝ} (hs : Sound g s)
    (h : calcBodyPos fuel s pos ori g body p tol = .ok s') : On (NearRect a 0) s' := by
  have hoff := hq.poseOff S.cellXY S.zgrid.pos
  have nb := calcBodyPos_post sqrtLaw_real S.zgrid S.cellXY S.level S.tolPos S.tolThird S.buffer hs.size
    hs.inArea hs.wf.bodyOK.al hoff h
  intro i j hij hb
  have : ∃ k, (k = 0 ∨ k = 2) ∧ HasBody s' k i j := by
    by_contra hn
    push Not at hn
    have h0 := (bodyAbs_iff s' 0 i j).mpr (hn 0 (.inl rfl))
    have h2 := (bodyAbs_iff s' 2 i j).mpr (hn 2 (.inr rfl))
    rw [h0, h2] at hb
    cases hb
  obtain ⟨k, hk, hbd⟩ := this
  have ho : Occ s' i j (s'.body k i j) := ⟨k, hk, hbd, le_rfl, (nb.bodyOK.order k i j hij hk hbd).le⟩
  obtain ⟨⟨x1, x2⟩, y1, y2⟩ := H.bounds
    (fun n => raster_support S C hsm (hq.box S.cellXY S.zgrid.pos) hoff hs h hij ho n)
  dsimp only at x1 x2 y1 y2
  have cx := abs_le.mp (C.x i hij.1)
  have cy := abs_le.mp (C.y j hij.2.2.1)
  have hc := S.cellXY
  have key : ∀ {u v : ℤ} {h : ℤ} {t : ℝ}, ((u : ℝ) - h + 1 / 2) * g.cellXY ≤ t → t ≤ (v - h) * g.cellXY + g.cellXY / 2 →
      u ≤ v := by
    intro u v h t h1 h2
    have : (u : ℝ) * g.cellXY ≤ v * g.cellXY := by nlinarith
    exact_mod_cast le_of_mul_le_mul_right this hc
  have key' : ∀ {u v : ℤ} {h : ℤ} {t : ℝ}, t ≤ ((u : ℝ) - h - 1 / 2) * g.cellXY → (v - h) * g.cellXY - g.cellXY / 2 ≤ t →
      v ≤ u := by
    intro u v h t h1 h2
    have : (v : ℝ) * g.cellXY ≤ u * g.cellXY := by nlinarith
    exact_mod_cast le_of_mul_le_mul_right this hc
  unfold NearRect
  rw [sub_zero, add_zero, sub_zero, add_zero]
  exact ⟨key x1 (by linarith [cx.2]), key' x2 (by linarith [cx.1]), key y1 (by linarith [cy.2]),
    key' y2 (by linarith [cy.1])⟩

theorem over_lands {g : Grid ℝ} (hc : 0 < g.cellXY) (hz : 0 < g.cellZ) {a : Area} {body : Body ℝ} {pos : Vec3 ℝ}
    {ori : Quat ℝ} (ho : qnormSq ori ≠ 0) (H : Over g a body (pos, ori)) {e : BodySoil ℝ}
    (he : 0 < e.h → Close g body e) : LandsIn (NearRect a 0) pos ori g e := by
  intro hh
  have hp : 0 < e.h := by
    simp only [ex_lt, ex_mul, ex_ofRat, decide_eq_false_iff_not, not_lt] at hh
    have : 0 < ((9 / 10 : ℚ) : ℝ) * g.cellZ := by positivity
    linarith
  obtain ⟨⟨x1, x2⟩, y1, y2⟩ := H.bounds (fun n => (he hp).moved (pos := pos) ho n)
  dsimp only
  intro i j hi hj
  have ex : ((calcRotationQuaternion ori ⟨e.xb, e.yb, e.zb⟩).addF pos).x = (movedTo pos ori e).x := rfl
  have ey : ((calcRotationQuaternion ori ⟨e.xb, e.yb, e.zb⟩).addF pos).y = (movedTo pos ori e).y := rfl
  rw [ex] at hi
  rw [ey] at hj
  simp only [ex_round, ex_add, ex_div, ex_ofInt, castInt_exact, truncZ_intCast, Except.ok.injEq] at hi hj
  have key : ∀ {u h : ℤ} {t : ℝ}, ((u : ℝ) - h + 1 / 2) * g.cellXY ≤ t → u ≤ roundAway (t / g.cellXY + h) := by
    intro u h t h1
    apply le_roundAway_of_le
    have := (le_div_iff₀ hc).mpr h1
    linarith
  have key' : ∀ {u h : ℤ} {t : ℝ}, t ≤ ((u : ℝ) - h - 1 / 2) * g.cellXY → roundAway (t / g.cellXY + h) ≤ u := by
    intro u h t h1
    apply roundAway_le_of_le
    have := (div_le_iff₀ hc).mpr h1
    linarith
  rw [← hi, ← hj]
  unfold NearRect
  rw [sub_zero, add_zero, sub_zero, add_zero]
  exact ⟨key x1, key' x2, key y1, key' y2⟩

theorem run_cone {g : Grid ℝ} {p : SimParam ℝ} {tol : ℝ} (S : Setup g p tol) (C : Centred g)
    (hsm : 18 * tol * ((g.halfX + g.halfY) * g.cellXY + g.halfZ * g.cellZ) ≤ g.cellZ) (hm : 0 ≤ p.maxIterations)
    {a : Area} (qs : List (Vec3 ℝ × Quat ℝ)) {r : ℤ} (hr : 2 ≤ r) {body : Body ℝ}
    (hq : ∀ q ∈ qs, Clear g body q ∧ Over g a body q) {w : World ℝ} (hs : Sound g w.out)
    (hl : ∀ e ∈ w.out.bodySoilPos, 0 < e.h → Close g body e) (hQ : Quiet a (dhMax g p) tol r w.out)
    {fuel : ℕ} {x : Body ℝ × World ℝ} (h : run fuel g p tol qs body w = .ok x) :
    SameT a (r + 2 * (qs.length * p.maxIterations) - 1) w.out x.2.out ∧
      Quiet a (dhMax g p) tol (r + 2 * (qs.length * p.maxIterations)) x.2.out ∧ Sound g x.2.out := by
  induction qs generalizing body w r with
  | nil =>
    cases h
    exact ⟨fun _ _ _ => rfl, by simpa using hQ, hs⟩
  | cons q qs ih =>
    obtain ⟨pos, ori⟩ := q
    obtain ⟨hd, hov⟩ := hq _ List.mem_cons_self
    have hoff := hd.poseOff S.cellXY S.zgrid.pos
    unfold run at h
    obtain ⟨st, h1, h2⟩ := bind_eq_ok.mp h
    have ht : (tol <ᶠ (FOps.zero : ℝ)) = false := by
      have := S.tolPos
      simp only [ex_lt, ex_zero, decide_eq_false_iff_not, not_lt]
      exact this.le
    obtain ⟨c1, c2, t1, q1⟩ := step_cone (a := a) (r := r) hr ht
      (fun e he => over_lands S.cellXY S.zgrid.pos hd.ori hov (hl e he))
      (fun s h => ⟨calcBodyPos_bodyOnly _ _ _ _ _ _ _ _ s h, over_on S C hsm hd hov hs h⟩) hQ h1
    have hS := (step_sound sqrtLaw_real S fuel pos ori body hoff w hs st h1).1
    have hw := step_close S C hsm hd hs hl h1
    have Hb : ∀ pos ori, bodyVertices g pos ori st.body = bodyVertices g pos ori body := by
      intro pos' ori'
      cases hu : st.updated with
      | false => rw [((C12_step fuel pos ori g body p tol w st h1).1 hu).2]
      | true =>
        rw [(C12_step fuel pos ori g body p tol w st h1).2 hu]
        rfl
    have hp : st.passes ≤ p.maxIterations := by omega
    obtain ⟨t2, q2, s2⟩ := ih (r := r + 2 * p.maxIterations) (by omega) (body := st.body) (fun q hm => by
      obtain ⟨u, v⟩ := hq q (List.mem_cons_of_mem _ hm)
      exact ⟨⟨u.ori, by rw [Hb]; exact u.x, by rw [Hb]; exact u.y, by rw [Hb]; exact u.z⟩,
        ⟨by rw [Hb]; exact v.x, by rw [Hb]; exact v.y⟩⟩) hS
      (fun e he hp => by
        unfold Close
        rw [Hb]
        exact hw e he hp)
      (fun i j g1 g2 g3 g4 hu => (q1 i j g1 g2 g3 g4 hu).mono (by omega)) h2
    have e : r + 2 * p.maxIterations + 2 * (qs.length * p.maxIterations) =
        r + 2 * (((pos, ori) :: qs).length * p.maxIterations) := by
      rw [List.length_cons]; push_cast; ring
    rw [e] at t2 q2
    have hn : 0 ≤ (qs.length : ℤ) * p.maxIterations := by positivity
    have e2 : (((pos, ori) :: qs).length : ℤ) * p.maxIterations = qs.length * p.maxIterations + p.maxIterations := by
      rw [List.length_cons]; push_cast; ring
    exact ⟨SameT.trans (t1.mono (by rw [e2]; omega)) t2, q2, s2⟩

/-- **C57**, one step in any arithmetic, rounding and NaN included. Let every column that the body occupies in the
new pose, and every column that a record of soil on the body is carried to, be in a rectangle, and let the
columns that pass the test for instability be in the rectangle grown by `r`. Then terrain changes only within
`r - 1 + 2·k` of the rectangle, `k` being the number of relaxation passes made, which is at most the
maximum number. -/
theorem C57_step {F : Type} [FOps F] (a : Area) (r : ℤ) (hr : 2 ≤ r) (fuel : ℕ) (pos : Vec3 F) (ori : Quat F)
    (g : Grid F) (body : Body F) (p : SimParam F) (tol : F) (ht : FOps.lt tol FOps.zero = false) (w : World F)
    (hbody : ∀ s, calcBodyPos fuel w.out pos ori g body p tol = .ok s → ∀ i j, s.InGrid i j →
      (s.bodyAbs 0 i j && s.bodyAbs 2 i j) = false → NearRect a 0 i j)
    (hsoil : ∀ e ∈ w.out.bodySoilPos, FOps.lt e.h (FOps.mul (FOps.ofRat (9 / 10)) g.cellZ) = false →
      let q := (calcRotationQuaternion ori ⟨e.xb, e.yb, e.zb⟩).addF pos
      ∀ i j, castInt (FOps.round (FOps.add (FOps.div q.x g.cellXY) (FOps.ofInt g.halfX))) = .ok i →
        castInt (FOps.round (FOps.add (FOps.div q.y g.cellXY) (FOps.ofInt g.halfY))) = .ok j → NearRect a 0 i j)
    (hrest : ∀ i j, w.out.InGrid (i - 1) j → w.out.InGrid (i + 1) j → w.out.InGrid i (j - 1) →
      w.out.InGrid i (j + 1) → unstableAt w.out (dhMax g p) tol i j = true → NearRect a r i j)
    (x : StepResult F) (h : step fuel pos ori g body p tol w = .ok x) :
    0 ≤ x.passes ∧ (x.passes = 0 ∨ x.passes ≤ p.maxIterations) ∧
      ∀ i j, ¬ NearRect a (r - 1 + 2 * x.passes) i j → x.world.out.terrain i j = w.out.terrain i j := by
  obtain ⟨h1, h2, h3, -⟩ := step_cone hr ht hsoil
    (fun s hs => ⟨calcBodyPos_bodyOnly _ _ _ _ _ _ _ _ s hs, hbody s hs⟩) hrest h
  exact ⟨h1, h2, fun i j hn => h3 i j fun hw => hn (hw.mono (by omega))⟩

/-- **C57**. From any initial state, for any random numbers and any sequence of poses that keep the body over
a rectangle of columns: the simulation runs to its end, and terrain has changed only in the rectangle and
in the columns at most `1 + 2·n·m` away from it, `n` being the number of steps and `m` the maximum number
of relaxation passes, provided that the initial terrain is at rest outside the rectangle (up to two
columns). At the end the terrain is at rest outside the rectangle grown by `2 + 2·n·m`. -/
theorem C57_cone (g : Grid ℝ) (p : SimParam ℝ) (tol : ℝ) (S : Setup g p tol) (C : Centred g)
    (hsm : 18 * tol * ((g.halfX + g.halfY) * g.cellXY + g.halfZ * g.cellZ) ≤ g.cellZ) (hm : 0 ≤ p.maxIterations)
    (body : Body ℝ) (a : Area) (qs : List (Vec3 ℝ × Quat ℝ)) (hq : ∀ q ∈ qs, Clear g body q ∧ Over g a body q)
    (w : World ℝ) (h : Start g w.out)
    (hrest : ∀ i j, (1 ≤ i ∧ i < 2 * g.halfX) → (1 ≤ j ∧ j < 2 * g.halfY) →
      Unstable w.out (reposeStep g p) tol i j → NearRect a 2 i j) :
    ∃ body' w' N, (∀ fuel, N ≤ fuel → run fuel g p tol qs body w = .ok (body', w')) ∧
      (∀ i j, ¬ NearRect a (1 + 2 * (qs.length * p.maxIterations)) i j → w'.out.terrain i j = w.out.terrain i j) ∧
      ∀ i j, (1 ≤ i ∧ i < 2 * g.halfX) → (1 ≤ j ∧ j < 2 * g.halfY) →
        Unstable w'.out (reposeStep g p) tol i j → NearRect a (2 + 2 * (qs.length * p.maxIterations)) i j := by
  obtain ⟨b, w', N, hN⟩ := C48_margin g p tol S C hsm body qs (fun q hm => (hq q hm).1) w h
  obtain ⟨t, q, s⟩ := run_cone S C hsm hm qs (le_refl 2) hq h.sound
    (fun e he => by rw [h.noEntry] at he; cases he) ((quiet_iff h.size).mpr hrest) (hN N le_rfl)
  refine ⟨b, w', N, hN, fun i j hn => t i j fun hw => hn (hw.mono (by omega)), (quiet_iff s.size).mp q⟩

/-! ## The hypotheses can be met

The grid, the parameters and the bucket of the example program on flat ground: whatever five steps do with the
bucket around the middle of the grid, the outer eleven columns on each side keep their height. -/

theorem over_of_reach {g : Grid ℝ} {a : Area} {body : Body ℝ} {R D : ℝ} (H : Reach g body R D)
    (hc : 0 < g.cellXY) {q : Vec3 ℝ × Quat ℝ} (ho : qnormSq q.2 ≠ 0)
    (hx : (a.minX - g.halfX + 1 / 2) * g.cellXY + margin g + R ≤ q.1.x ∧
      q.1.x + R + margin g ≤ (a.maxX - g.halfX - 1 / 2) * g.cellXY)
    (hy : (a.minY - g.halfY + 1 / 2) * g.cellXY + margin g + R ≤ q.1.y ∧
      q.1.y + R + margin g ≤ (a.maxY - g.halfY - 1 / 2) * g.cellXY) : Over g a body q := by
  have key : ∀ v ∈ bodyVertices g q.1 q.2 body, |v.x - q.1.x| ≤ R ∧ |v.y - q.1.y| ≤ R := by
    intro v hv
    have h := vertices_len H hc q.1 ho v hv
    obtain ⟨h1, h2, h3⟩ := abs_le_len (vsub v q.1)
    exact ⟨h1.trans h, h2.trans h⟩
  refine ⟨fun v hv => ?_, fun v hv => ?_⟩
  · have := abs_le.mp (key v hv).1
    constructor <;> linarith
  · have := abs_le.mp (key v hv).2
    constructor <;> linarith

example (angle : ℝ) (ha : 0 ≤ angle ∧ angle ≤ Transc.pi / 2) (rng : Rng) (kind : BodyKind) (pos : Vec3 ℝ)
    (ori : Quat ℝ) (qs : List (Vec3 ℝ × Quat ℝ)) (hn : qs.length ≤ 5)
    (hq : ∀ q ∈ qs, (|q.1.x| ≤ 1 / 2 ∧ |q.1.y| ≤ 1 / 2 ∧ |q.1.z| ≤ 5 / 2) ∧ qnormSq q.2 ≠ 0) :
    ∃ g p body' w' N, mkGrid 4 4 4 (1 / 20 : ℝ) (1 / 100) = .ok g ∧ mkSimParam angle 3 4 = .ok p ∧
      (∀ fuel, N ≤ fuel → run fuel g p (1 / 100000) qs
        ⟨kind, ⟨0, 0, 0⟩, ⟨0, 0, -1 / 2⟩, ⟨7 / 10, 0, -1 / 2⟩, 1 / 2, pos, ori⟩ ⟨mkSimOut g, rng, []⟩ =
          .ok (body', w')) ∧
      ∀ i j, i < 11 ∨ 149 < i ∨ j < 11 ∨ 149 < j → w'.out.terrain i j = 0 := by
  have hv : ValidGridArgs (4 : ℝ) 4 4 (1 / 20) (1 / 100) := by constructor <;> norm_num
  obtain ⟨g, hg, gs⟩ := C01_grid_accepts hv
  have hp := (C02_simParam_iff angle 3 4).1 ⟨ha, by norm_num, by norm_num⟩
  have S := setup_of_constructors (n := 400) (tol := 1 / 100000) hv (by norm_num) hg hp (by norm_num)
    (by norm_num) (by norm_num)
  have hX : g.halfX = 80 := by rw [gs.halfX]; norm_num [Int.floor_eq_iff]
  have hY : g.halfY = 80 := by rw [gs.halfY]; norm_num [Int.floor_eq_iff]
  have c0 : g.cellXY = 1 / 20 := gs.cellXY
  have z0 : g.cellZ = 1 / 100 := gs.cellZ
  have l1 : len ⟨0, 0, 0⟩ ≤ 87 / 100 := by unfold len; rw [Real.sqrt_le_left (by norm_num)]; norm_num [dot]
  have l2 : len ⟨7 / 10, 0, -1 / 2⟩ ≤ 87 / 100 := by
    unfold len; rw [Real.sqrt_le_left (by norm_num)]; norm_num [dot]
  have l3 : len ⟨0, 0, -1 / 2⟩ ≤ 87 / 100 := by
    unfold len; rw [Real.sqrt_le_left (by norm_num)]; norm_num [dot]
  have hR : Reach g ⟨kind, ⟨0, 0, 0⟩, ⟨0, 0, -1 / 2⟩, ⟨7 / 10, 0, -1 / 2⟩, 1 / 2, pos, ori⟩ (117 / 100) 10 := by
    refine ⟨by norm_num, ?_, ?_, ?_, by norm_num, ?_⟩
    · rw [c0]; dsimp only; linarith
    · rw [c0]; dsimp only; linarith
    · rw [c0]; dsimp only; linarith
    · rw [c0, z0]; norm_num
  have st : Start g (mkSimOut g) := by
    refine ⟨fun i j _ => ⟨0, by simp [mkSimOut]⟩, by simp [mkSimOut], by simp [mkSimOut], rfl, ?_, ?_, ?_⟩
    · unfold AreaInside mkSimOut; dsimp only; omega
    · unfold AreaInside mkSimOut; dsimp only; omega
    · exact ⟨rfl, rfl⟩
  have hcl : ∀ q ∈ qs, Clear g ⟨kind, ⟨0, 0, 0⟩, ⟨0, 0, -1 / 2⟩, ⟨7 / 10, 0, -1 / 2⟩, 1 / 2, pos, ori⟩ q ∧
      Over g ⟨42, 118, 42, 118⟩ ⟨kind, ⟨0, 0, 0⟩, ⟨0, 0, -1 / 2⟩, ⟨7 / 10, 0, -1 / 2⟩, 1 / 2, pos, ori⟩ q := by
    intro q hm
    obtain ⟨⟨hx, hy, hz⟩, ho⟩ := hq q hm
    refine ⟨bucket_clear kind pos ori g hg q.1.x q.1.y q.1.z q.2 (by linarith) (by linarith) hz ho,
      over_of_reach hR (by rw [c0]; norm_num) ho ?_ ?_⟩
    · have := abs_le.mp hx
      unfold margin; rw [c0, z0, hX]; dsimp only; push_cast; constructor <;> linarith
    · have := abs_le.mp hy
      unfold margin; rw [c0, z0, hY]; dsimp only; push_cast; constructor <;> linarith
  obtain ⟨b, w', N, hN, ht, -⟩ := C57_cone g _ (1 / 100000) S (centred_of_constructor hv hg)
    (small_of_constructor hv hg (by norm_num) (by norm_num)) (by norm_num) _ ⟨42, 118, 42, 118⟩ qs hcl
    ⟨mkSimOut g, rng, []⟩ st (by
      rintro i j - - ⟨i', j', -, h⟩
      exfalso
      have h0 : 0 ≤ reposeStep g ⟨angle, 3, 4⟩ := by
        unfold reposeStep
        have := S.repose
        have e : (0 : ℤ) ≤ roundAway (g.cellXY * Transc.tan angle / g.cellZ) := by
          apply le_roundAway_of_le
          rw [c0, z0]; push_cast; positivity
        rw [z0]
        have : (0 : ℝ) ≤ (roundAway (g.cellXY * Transc.tan angle / g.cellZ) : ℝ) := by exact_mod_cast e
        rw [z0] at this
        dsimp only
        positivity
      simp only [mkSimOut, ex_zero] at h
      linarith)
  refine ⟨g, _, b, w', N, hg, hp, hN, fun i j hij => ?_⟩
  rw [ht i j ?_]
  · simp [mkSimOut]
  · unfold NearRect
    dsimp only
    have : (qs.length : ℤ) ≤ 5 := by exact_mod_cast hn
    omega

end Soil

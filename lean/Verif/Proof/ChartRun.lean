import Verif.Proof.ChartFresh
import Verif.Props.Cone

/-! # Runs of corresponding scenes from fresh states -/

namespace Soil

open FOps

variable {c : Chart} {d : Vec3 ℝ} {g g' : Grid ℝ}

theorem vertices_moved (P : Placed c d g g') (pos : Vec3 ℝ) (ori : Quat ℝ) (b : Body ℝ) (e : Vec3 ℝ) :
    bodyVertices g' (vadd pos d) ori (b.moved e) = (bodyVertices g pos ori b).map (vadd · d) := by
  unfold bodyVertices
  rw [corners_moved]
  have hk : (b.moved e).kind = b.kind := rfl
  rw [hk]
  cases b.kind with
  | bucket => rfl
  | blade =>
    dsimp only
    rw [bladeBack_moved P]
    rfl

theorem margin_placed (P : Placed c d g g') : margin g' = margin g := by
  unfold margin
  rw [P.cellXY, P.cellZ]

theorem over_moved (P : Placed c d g g') {a : Area} {b : Body ℝ} {q : Vec3 ℝ × Quat ℝ} (h : Over g a b q) (e : Vec3 ℝ) :
    Over g' (c.area a) (b.moved e) (vadd q.1 d, q.2) := by
  refine ⟨fun v hv => ?_, fun v hv => ?_⟩
  · rw [vertices_moved P] at hv
    obtain ⟨u, hu, rfl⟩ := List.mem_map.mp hv
    have := h.x u hu
    rw [margin_placed P, P.cellXY, Chart.area_noswap P.swap]
    show _ ≤ u.x + d.x ∧ u.x + d.x + _ ≤ _
    rw [P.dx]
    push_cast
    constructor <;> nlinarith [this.1, this.2]
  · rw [vertices_moved P] at hv
    obtain ⟨u, hu, rfl⟩ := List.mem_map.mp hv
    have := h.y u hu
    rw [margin_placed P, P.cellXY, Chart.area_noswap P.swap]
    show _ ≤ u.y + d.y ∧ u.y + d.y + _ ≤ _
    rw [P.dy]
    push_cast
    constructor <;> nlinarith [this.1, this.2]

/-- Over a rectangle inside the grid the body is clear of the sides. -/
theorem clear_of_over {a : Area} {b : Body ℝ} {q : Vec3 ℝ × Quat ℝ} (h : Over g a b q) (hc : 0 < g.cellXY) {m : ℤ} (hm : 1 ≤ m)
    (W : Wide g m a) (ho : qnormSq q.2 ≠ 0) (hz : ∀ v ∈ bodyVertices g q.1 q.2 b, |v.z| < (g.halfZ - 1) * g.cellZ) :
    Clear g b q := by
  obtain ⟨w1, w2, w3, w4⟩ := W
  have key : ∀ {lo hi half : ℤ} {t : ℝ}, 2 + m ≤ lo → hi + m ≤ 2 * half →
      (((lo : ℝ) - half + 1 / 2) * g.cellXY + margin g ≤ t ∧ t + margin g ≤ (hi - half - 1 / 2) * g.cellXY) →
      |t| + margin g < (half - 1 / 2) * g.cellXY := by
    intro lo hi half t h1 h2 ⟨h3, h4⟩
    have e1 : (3 : ℝ) ≤ lo := by exact_mod_cast (by omega : (3 : ℤ) ≤ lo)
    have e2 : (hi : ℝ) + 1 ≤ 2 * half := by exact_mod_cast (by omega : hi + 1 ≤ 2 * half)
    have e3 := mul_le_mul_of_nonneg_right e1 hc.le
    have e4 := mul_le_mul_of_nonneg_right e2 hc.le
    rcases abs_cases t with ⟨e, -⟩ | ⟨e, -⟩ <;> rw [e] <;> linarith
  exact ⟨ho, fun v hv => key w1 w2 (h.x v hv), fun v hv => key w3 w4 (h.y v hv), hz⟩

theorem placed_setup (P : Placed c d g g') {p : SimParam ℝ} {tol : ℝ} (S : Setup g p tol) : Setup g' p tol := by
  refine ⟨⟨?_, ?_⟩, ?_, ?_, S.tolPos, S.tolThird, ?_, S.buffer, S.repose⟩
  · rw [P.cellZ]; exact S.zgrid.pos
  · rw [P.halfZ, P.vectZ, P.cellZ]; exact S.zgrid.step
  · rw [P.cellXY]; exact S.cellXY
  · rw [P.vectZ, P.cellZ]; exact S.level
  · rw [P.cellZ]; exact S.tolCell

/-- The rectangle of the body is around the rectangle it is over. -/
theorem over_bodyArea {a : Area} {b : Body ℝ} {pos : Vec3 ℝ} {ori : Quat ℝ} {p : SimParam ℝ} {tol : ℝ} (S : Setup g p tol)
    (H : Over g a b (pos, ori)) {fuel : ℕ} {s s' : SimOut ℝ} (h : calcBodyPos fuel s pos ori g b p tol = .ok s') :
    a.minX - p.cellBuffer ≤ s'.bodyArea.minX ∧ s'.bodyArea.maxX ≤ a.maxX + p.cellBuffer ∧
    a.minY - p.cellBuffer ≤ s'.bodyArea.minY ∧ s'.bodyArea.maxY ≤ a.maxY + p.cellBuffer := by
  have hc := S.cellXY
  have hz := S.zgrid.pos
  have hm := margin_pos hc hz
  obtain ⟨B, hB⟩ := exists_box g (bodyVertices g pos ori b)
  have bd : ∀ {lo hi half : ℤ} {t : ℝ}, ((lo : ℝ) - half + 1 / 2) * g.cellXY + margin g ≤ t ∧
      t + margin g ≤ (hi - half - 1 / 2) * g.cellXY → (lo : ℝ) + 1 / 2 ≤ t / g.cellXY + half ∧ t / g.cellXY + half ≤ hi - 1 / 2 := by
    intro lo hi half t ⟨h1, h2⟩
    have e1 : (lo : ℝ) - half + 1 / 2 ≤ t / g.cellXY := by rw [le_div_iff₀ hc]; linarith
    have e2 : t / g.cellXY ≤ (hi : ℝ) - half - 1 / 2 := by rw [div_le_iff₀ hc]; linarith
    constructor <;> linarith
  have hin := nudgedVertices_in (B := ⟨(a.minX : ℝ) + 1 / 2, a.maxX - 1 / 2, a.minY + 1 / 2, a.maxY - 1 / 2, B.zlo, B.zhi⟩) hc hz
    S.tolPos.le S.tolThird (fun v hv => ⟨bd (H.x v hv), bd (H.y v hv), (hB v hv).2.2⟩)
  have key : ∀ (v : Vec3 ℝ) (l : List (Vec3 ℝ)) (ar : Area), (∀ u ∈ v :: l, u ∈ nudgedVertices g tol pos ori b) →
      bodyAreaOf g p v l = .ok ar →
      a.minX - p.cellBuffer ≤ ar.minX ∧ ar.maxX ≤ a.maxX + p.cellBuffer ∧
      a.minY - p.cellBuffer ≤ ar.minY ∧ ar.maxY ≤ a.maxY + p.cellBuffer := by
    intro v l ar hm' har
    obtain ⟨xlo, xhi, ylo, yhi, e, ⟨-, u1, m1, k1⟩, ⟨-, u2, m2, k2⟩, ⟨-, u3, m3, k3⟩, -, u4, m4, k4⟩ := bodyAreaOf_spec g p v l hc
    rw [e] at har
    cases har
    have b1 := (hin u1 (hm' _ m1)).1.1
    have b2 := (hin u2 (hm' _ m2)).1.2
    have b3 := (hin u3 (hm' _ m3)).2.1.1
    have b4 := (hin u4 (hm' _ m4)).2.1.2
    rw [k1] at b1
    rw [k2] at b2
    rw [k3] at b3
    rw [k4] at b4
    dsimp only at b1 b2 b3 b4 ⊢
    refine ⟨le_max_of_le_left ?_, min_le_of_left_le ?_, le_max_of_le_left ?_, min_le_of_left_le ?_⟩
    · apply le_roundAway_of_le; push_cast; linarith
    · apply roundAway_le_of_le; push_cast; linarith
    · apply le_roundAway_of_le; push_cast; linarith
    · apply roundAway_le_of_le; push_cast; linarith
  unfold calcBodyPos at h
  obtain ⟨s1, h1, h⟩ := bind_eq_ok.mp h
  unfold nudgedVertices cornerSets at key
  dsimp only at h key
  cases hk : b.kind with
  | bucket =>
    rw [hk] at h key
    dsimp only at h key
    obtain ⟨ar, ea, h⟩ := bind_eq_ok.mp h
    obtain ⟨ws, ew, h⟩ := bind_eq_ok.mp h
    have f := (updateWalls_only (P := fun _ _ => True) ws _ _ (fun _ _ _ _ => trivial) h).1
    rw [show s'.bodyArea = ar by rw [f]]
    refine key _ _ ar (fun u hu => ?_) ea
    simp only [List.flatMap_cons, List.flatMap_nil, List.append_nil]
    exact hu
  | blade =>
    rw [hk] at h key
    dsimp only at h key
    obtain ⟨ar, ea, h⟩ := bind_eq_ok.mp h
    obtain ⟨ws, ew, h⟩ := bind_eq_ok.mp h
    have f := (updateWalls_only (P := fun _ _ => True) ws _ _ (fun _ _ _ _ => trivial) h).1
    rw [show s'.bodyArea = ar by rw [f]]
    refine key _ _ ar (fun u hu => ?_) ea
    simp only [List.flatMap_cons, List.flatMap_nil, List.append_nil]
    exact hu

/-- What is known between the steps of one run -/
structure Meanwhile (g : Grid ℝ) (p : SimParam ℝ) (tol : ℝ) (a : Area) (r : ℤ) (body : Body ℝ) (w : World ℝ) : Prop where
  sound : Sound g w.out
  close : ∀ e ∈ w.out.bodySoilPos, 0 < e.h → Close g body e
  quiet : Quiet a (dhMax g p) tol r w.out

theorem Meanwhile.step {p : SimParam ℝ} {tol : ℝ} (S : Setup g p tol) (C : Centred g)
    (hsm : 18 * tol * ((g.halfX + g.halfY) * g.cellXY + g.halfZ * g.cellZ) ≤ g.cellZ) (hm : 0 ≤ p.maxIterations)
    {a : Area} {r : ℤ} (hr : 2 ≤ r) {body : Body ℝ} {w : World ℝ} (I : Meanwhile g p tol a r body w) {pos : Vec3 ℝ}
    {ori : Quat ℝ} (hd : Clear g body (pos, ori)) (hov : Over g a body (pos, ori)) {fuel : ℕ} {st : StepResult ℝ}
    (h : step fuel pos ori g body p tol w = .ok st) :
    Meanwhile g p tol a (r + 2 * p.maxIterations) st.body st.world ∧
      ∀ pos ori, bodyVertices g pos ori st.body = bodyVertices g pos ori body := by
  obtain ⟨hs, hl, hQ⟩ := I
  have hoff := hd.poseOff S.cellXY S.zgrid.pos
  have ht : (tol <ᶠ (FOps.zero : ℝ)) = false := by
    have := S.tolPos
    simp only [ex_lt, ex_zero, decide_eq_false_iff_not, not_lt]
    exact this.le
  obtain ⟨c1, c2, t1, q1⟩ := step_cone (a := a) (r := r) hr ht
    (fun e he => over_lands S.cellXY S.zgrid.pos hd.ori hov (hl e he))
    (fun s h => ⟨calcBodyPos_bodyOnly _ _ _ _ _ _ _ _ s h, over_on S C hsm hd hov hs h⟩) hQ h
  have hS := (step_sound sqrtLaw_real S fuel pos ori body hoff w hs st h).1
  have hw := step_close S C hsm hd hs hl h
  have Hb : ∀ pos ori, bodyVertices g pos ori st.body = bodyVertices g pos ori body := by
    intro pos' ori'
    cases hu : st.updated with
    | false => rw [((C12_step fuel pos ori g body p tol w st h).1 hu).2]
    | true =>
      rw [(C12_step fuel pos ori g body p tol w st h).2 hu]
      rfl
  refine ⟨⟨hS, fun e he hp => ?_, fun i j g1 g2 g3 g4 hu => (q1 i j g1 g2 g3 g4 hu).mono (by omega)⟩, Hb⟩
  unfold Close
  rw [Hb]
  exact hw e he hp

/-- what is known between the steps of two runs of the same scene -/
structure Fellow (c : Chart) (g g' : Grid ℝ) (w w' : World ℝ) : Prop where
  like : Like True c w.out w'.out
  body : BodyRel c w.out w'.out
  relax : RelaxRel c g g' w.out w'.out
  rng : w'.rng = w.rng

theorem run_fresh (P : Placed c d g g') {p : SimParam ℝ} {tol : ℝ} (S : Setup g p tol) (C : Centred g) (C' : Centred g')
    (hsm : 18 * tol * ((g.halfX + g.halfY) * g.cellXY + g.halfZ * g.cellZ) ≤ g.cellZ)
    (hsm' : 18 * tol * ((g'.halfX + g'.halfY) * g'.cellXY + g'.halfZ * g'.cellZ) ≤ g'.cellZ) (hm : 0 ≤ p.maxIterations)
    {a : Area} {N : ℤ} (hN : 0 ≤ N) (W : Wide g (N + 1 + p.cellBuffer) a) (W' : Wide g' (N + 1 + p.cellBuffer) (c.area a))
    (qs : List (Vec3 ℝ × Quat ℝ)) {r : ℤ} (hr : 2 ≤ r) (hrN : r + 2 * (qs.length * p.maxIterations) ≤ N + 2) {b : Body ℝ}
    (hq : ∀ q ∈ qs, Clear g b q ∧ Over g a b q) {w w' : World ℝ} (I : Meanwhile g p tol a r b w)
    (I' : Meanwhile g' p tol (c.area a) r (b.moved d) w') (Fe : Fellow c g g' w w') {fuel : ℕ} {x x' : Body ℝ × World ℝ}
    (h : run fuel g p tol qs b w = .ok x)
    (h' : run fuel g' p tol (qs.map fun q => (vadd q.1 d, q.2)) (b.moved d) w' = .ok x') :
    Fellow c g g' x.2 x'.2 ∧ (∃ y, x.2.log = w.log ++ y ∧ x'.2.log = w'.log ++ y) ∧ x'.1 = x.1.moved d := by
  have S' := placed_setup P S
  have hb := S.buffer
  have ht : (tol <ᶠ (FOps.zero : ℝ)) = false := by
    have := S.tolPos
    simp only [ex_lt, ex_zero, decide_eq_false_iff_not, not_lt]
    exact this.le
  have R : c.Roomy g g' p.cellBuffer (a.grow N) := by
    unfold Chart.Roomy
    simp only [P.swap, Bool.false_eq_true, if_false]
    rw [area_grow P.swap]
    unfold Area.grow Wide at *
    dsimp only
    omega
  have cl : ∀ q, ∀ b : Body ℝ, Clear g b q → Over g a b q → Clear g' (b.moved d) (vadd q.1 d, q.2) := by
    intro q b h1 h2
    refine clear_of_over (over_moved P h2 d) S'.cellXY (m := N + 1 + p.cellBuffer) (by omega) W' h1.ori ?_
    intro v hv
    rw [vertices_moved P] at hv
    obtain ⟨u, hu, rfl⟩ := List.mem_map.mp hv
    have := h1.z u hu
    rw [P.halfZ, P.cellZ]
    show |u.z + d.z| < _
    rw [P.dz, add_zero]
    exact this
  induction qs generalizing b w w' r with
  | nil =>
    cases h
    cases h'
    exact ⟨Fe, ⟨[], by simp, by simp⟩, rfl⟩
  | cons q qs ih =>
    obtain ⟨pos, ori⟩ := q
    rw [List.map_cons] at h'
    unfold run at h h'
    obtain ⟨st, h1, h2⟩ := bind_eq_ok.mp h
    obtain ⟨st', h1', h2'⟩ := bind_eq_ok.mp h'
    obtain ⟨hd, hov⟩ := hq _ List.mem_cons_self
    have hd' := cl _ b hd hov
    have hov' := over_moved P hov d
    obtain ⟨J, Hb⟩ := I.step S C hsm hm hr hd hov h1
    obtain ⟨J', -⟩ := I'.step S' C' hsm' hm hr hd' hov' h1'
    have hn : 0 ≤ (qs.length : ℤ) * p.maxIterations := by positivity
    have e2 : (((pos, ori) :: qs).length : ℤ) * p.maxIterations = qs.length * p.maxIterations + p.maxIterations := by
      rw [List.length_cons]; push_cast; ring
    rw [e2] at hrN
    have D : dhMax g' p = dhMax g p := dhMax_like (sameScene_moved P b) p
    have hQ' := I'.quiet
    rw [D] at hQ'
    obtain ⟨F1, F2, F3, F4, ⟨y, y1, y2⟩, eb, -, -⟩ := step_fresh P p tol (by omega) ht fuel b pos ori Fe.like Fe.body Fe.relax
      Fe.rng R hr (by omega)
      (fun e he => over_lands S.cellXY S.zgrid.pos hd.ori hov (I.close e he))
      (fun e he => over_lands S'.cellXY S'.zgrid.pos hd'.ori hov' (I'.close e he))
      (fun s hs => ⟨over_on S C hsm hd hov I.sound hs, by
        have := over_bodyArea S hov hs
        unfold Chart.Roomy
        simp only [P.swap, Bool.false_eq_true, if_false]
        rw [Chart.area_noswap P.swap] at W' ⊢
        unfold Wide at *
        dsimp only at *
        omega⟩)
      (fun s hs => over_on S' C' hsm' hd' hov' I'.sound hs) I.quiet hQ' I.sound.size I'.sound.size h1 h1'
    rw [eb] at h2' J'
    obtain ⟨G1, ⟨z, z1, z2⟩, G3⟩ := ih (r := r + 2 * p.maxIterations) (by omega) (by omega) (b := st.body) (fun q hm => by
      obtain ⟨u, v⟩ := hq q (List.mem_cons_of_mem _ hm)
      exact ⟨⟨u.ori, by rw [Hb]; exact u.x, by rw [Hb]; exact u.y, by rw [Hb]; exact u.z⟩,
        ⟨by rw [Hb]; exact v.x, by rw [Hb]; exact v.y⟩⟩) J J' ⟨F1, F2, F3, F4⟩ h2 h2'
    exact ⟨G1, ⟨y ++ z, by rw [z1, y1, List.append_assoc], by rw [z2, y2, List.append_assoc]⟩, G3⟩

end Soil

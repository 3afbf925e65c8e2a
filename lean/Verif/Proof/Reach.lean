import Verif.Proof.Total
import Verif.Proof.Fuel
import Verif.Spec.Reach
import Verif.Props.Record
import Verif.Props.Shape
import Verif.Props.BodyPos
import Verif.Props.BodyGeometry
import Verif.Props.Line

/-! # Bounds on the body and on the records of body soil -/

set_option linter.unusedSectionVars false

namespace Soil

theorem dot_self_nonneg' (v : Vec3 ℝ) : 0 ≤ dot v v := by
  unfold dot; nlinarith [sq_nonneg v.x, sq_nonneg v.y, sq_nonneg v.z]

theorem len_sq (v : Vec3 ℝ) : len v ^ 2 = dot v v := Real.sq_sqrt (dot_self_nonneg' v)

theorem len_nonneg (v : Vec3 ℝ) : 0 ≤ len v := Real.sqrt_nonneg _

theorem dot_le_len (a b : Vec3 ℝ) : dot a b ≤ len a * len b := by
  refine abs_le_of_sq_le_sq' (a := dot a b) ?_ (mul_nonneg (len_nonneg a) (len_nonneg b)) |>.2
  rw [mul_pow, len_sq, len_sq]
  unfold dot
  nlinarith [sq_nonneg (a.x * b.y - a.y * b.x), sq_nonneg (a.x * b.z - a.z * b.x),
    sq_nonneg (a.y * b.z - a.z * b.y)]

theorem len_add_le (a b : Vec3 ℝ) : len (vadd a b) ≤ len a + len b := by
  refine abs_le_of_sq_le_sq' (a := len (vadd a b)) ?_ (add_nonneg (len_nonneg a) (len_nonneg b)) |>.2
  have h : dot (vadd a b) (vadd a b) = dot a a + 2 * dot a b + dot b b := by
    unfold dot vadd; ring
  rw [len_sq, h, ← len_sq a, ← len_sq b]
  nlinarith [dot_le_len a b]

theorem len_smul (k : ℝ) (v : Vec3 ℝ) : len (vsmul k v) = |k| * len v := by
  unfold len
  have : dot (vsmul k v) (vsmul k v) = k ^ 2 * dot v v := by unfold dot vsmul; ring
  rw [this, Real.sqrt_mul (sq_nonneg k), Real.sqrt_sq_eq_abs]

theorem len_sub_le (a b : Vec3 ℝ) : len (vsub a b) ≤ len a + len b := by
  have h : vsub a b = vadd a (vsmul (-1) b) := by
    unfold vsub vadd vsmul; apply Vec3.ext' <;> dsimp only <;> ring
  rw [h]
  refine (len_add_le _ _).trans ?_
  rw [len_smul]
  simp

theorem len_rot {q : Quat ℝ} (hq : qnormSq q ≠ 0) (v : Vec3 ℝ) :
    len (calcRotationQuaternion q v) = len v := by
  unfold len; rw [C05_dot q hq]

theorem abs_le_len (v : Vec3 ℝ) : |v.x| ≤ len v ∧ |v.y| ≤ len v ∧ |v.z| ≤ len v := by
  have h := len_sq v
  unfold dot at h
  refine ⟨?_, ?_, ?_⟩ <;>
    exact abs_le_of_sq_le_sq (by nlinarith [sq_nonneg v.x, sq_nonneg v.y, sq_nonneg v.z]) (len_nonneg v)

theorem len_normal (a b c : Vec3 ℝ) : len (calcNormal a b c) ≤ 1 := by
  by_cases h : NonCollinear a b c
  · unfold len
    rw [(C08_normal a b c h).1]
    simp
  · have h0 : cross (vsub b a) (vsub c a) = ⟨0, 0, 0⟩ := by
      unfold NonCollinear at h
      push Not at h
      exact h
    rw [calcNormal_eq, h0]
    simp [len, dot, vsmul]

theorem vadd_vsub_cancel (a b : Vec3 ℝ) : vsub (vadd a b) b = a := by
  unfold vadd vsub; apply Vec3.ext' <;> dsimp only <;> ring

/-- The corners are within `R` less a cell of the reference point. -/
theorem corners_len {g : Grid ℝ} {body : Body ℝ} {R D : ℝ} (H : Reach g body R D) (pos : Vec3 ℝ)
    {ori : Quat ℝ} (hq : qnormSq ori ≠ 0) :
    ∀ v ∈ (calcBodyCornerPos pos ori body).toList, len (vsub v pos) + g.cellXY ≤ R := by
  have hn : len (vsmul (1 / 2 * body.width) (calcNormal body.jInit body.bInit body.tInit)) ≤
      body.width / 2 := by
    rw [len_smul, abs_of_nonneg (by linarith [H.width])]
    nlinarith [len_normal body.jInit body.bInit body.tInit, H.width]
  have key : ∀ p, len (vsub (posed pos ori p) pos) = len p := fun p => by
    unfold posed
    rw [vadd_vsub_cancel, len_rot hq]
  rw [C09_rigid pos ori body hq]
  intro v hv
  simp only [Corners.toList, List.mem_cons, List.not_mem_nil, or_false] at hv
  rcases hv with rfl | rfl | rfl | rfl | rfl | rfl <;> rw [key]
  · linarith [len_add_le body.jInit _ |>.trans (add_le_add_right hn _), H.joint]
  · linarith [len_sub_le body.jInit _ |>.trans (add_le_add_right hn _), H.joint]
  · linarith [len_add_le body.bInit _ |>.trans (add_le_add_right hn _), H.base]
  · linarith [len_sub_le body.bInit _ |>.trans (add_le_add_right hn _), H.base]
  · linarith [len_add_le body.tInit _ |>.trans (add_le_add_right hn _), H.teeth]
  · linarith [len_sub_le body.tInit _ |>.trans (add_le_add_right hn _), H.teeth]

/-- All vertices are within `R` of the reference point. -/
theorem vertices_len {g : Grid ℝ} {body : Body ℝ} {R D : ℝ} (H : Reach g body R D) (hc : 0 < g.cellXY)
    (pos : Vec3 ℝ) {ori : Quat ℝ} (hq : qnormSq ori ≠ 0) :
    ∀ v ∈ bodyVertices g pos ori body, len (vsub v pos) ≤ R := by
  have h := corners_len H pos hq
  unfold bodyVertices
  dsimp only
  cases body.kind with
  | bucket => exact fun v hv => by linarith [h v hv]
  | blade =>
    intro v hv
    rcases List.mem_append.mp hv with hv | hv
    · linarith [h v hv]
    · have : ∃ u ∈ (calcBodyCornerPos pos ori body).toList, ∃ n, len n ≤ 1 ∧ v = vadd u (vsmul g.cellXY n) := by
        unfold bladeBack at hv
        dsimp only at hv
        simp only [Corners.toList, List.mem_cons, List.not_mem_nil, or_false] at hv ⊢
        rcases hv with rfl | rfl | rfl | rfl | rfl | rfl
        all_goals
          refine ⟨_, ?_, _, len_normal _ _ _, rfl⟩
          simp
      obtain ⟨u, hu, n, hn, rfl⟩ := this
      have e : vsub (vadd u (vsmul g.cellXY n)) pos = vadd (vsub u pos) (vsmul g.cellXY n) := by
        unfold vsub vadd; apply Vec3.ext' <;> dsimp only <;> ring
      rw [e]
      refine (len_add_le _ _).trans ?_
      rw [len_smul, abs_of_pos hc]
      nlinarith [h u hu]

theorem Reach.R_nonneg {g : Grid ℝ} {body : Body ℝ} {R D : ℝ} (H : Reach g body R D)
    (hc : 0 < g.cellXY) : 0 ≤ R := by
  linarith [H.joint, len_nonneg body.jInit, H.width]

theorem Reach.R_le {g : Grid ℝ} {body : Body ℝ} {R D : ℝ} (H : Reach g body R D) (hc : 0 < g.cellXY) :
    R ≤ D := by
  have := H.R_nonneg hc
  refine abs_le_of_sq_le_sq' (a := R) ?_ H.nonneg |>.2
  nlinarith [H.grown, sq_nonneg (R + 3 * g.cellZ)]

/-- Index coordinates of a coordinate near `p` -/
theorem idx_bounds {c p v r : ℝ} {half : ℝ} (hc : 0 < c) (h : |v - p| ≤ r) :
    (p - r) / c + half ≤ v / c + half ∧ v / c + half ≤ (p + r) / c + half := by
  obtain ⟨h1, h2⟩ := abs_le.mp h
  constructor <;> gcongr <;> linarith

theorem off_of {c p v r k half : ℝ} (hc : 0 < c) (h : |v - p| ≤ r) (hd : |p| + r < (half - k) * c) :
    k < v / c + half ∧ v / c + half < 2 * half - k := by
  obtain ⟨h1, h2⟩ := abs_le.mp h
  obtain ⟨h3, h4⟩ := abs_le.mp (le_refl |p|)
  have e : v / c * c = v := div_mul_cancel₀ _ hc.ne'
  constructor
  · by_contra hn
    push Not at hn
    have := mul_le_mul_of_nonneg_right hn hc.le
    rw [add_mul, e] at this
    nlinarith
  · by_contra hn
    push Not at hn
    have := mul_le_mul_of_nonneg_right hn hc.le
    rw [add_mul, e] at this
    nlinarith

theorem Deep.poseOff {g : Grid ℝ} {body : Body ℝ} {R D : ℝ} (H : Reach g body R D)
    (hc : 0 < g.cellXY) {q : Vec3 ℝ × Quat ℝ} (hq : Deep g R D q) : PoseOff g body q := by
  intro v hv
  have h := vertices_len H hc q.1 hq.ori v hv
  obtain ⟨h1, h2, -⟩ := abs_le_len (vsub v q.1)
  have hR := H.R_le hc
  have a := off_of hc ((h1.trans h).trans hR) hq.x
  have b := off_of hc ((h2.trans h).trans hR) hq.y
  exact ⟨⟨a.1.le, a.2⟩, ⟨b.1.le, b.2⟩⟩

theorem Deep.insideZ {g : Grid ℝ} {body : Body ℝ} {R D : ℝ} (H : Reach g body R D)
    (hc : 0 < g.cellXY) (hz : 0 < g.cellZ) {q : Vec3 ℝ × Quat ℝ} (hq : Deep g R D q) :
    ∀ v ∈ bodyVertices g q.1 q.2 body, InsideZ g v := by
  intro v hv
  have h := vertices_len H hc q.1 hq.ori v hv
  obtain ⟨-, -, h3⟩ := abs_le_len (vsub v q.1)
  have a := off_of hz (h3.trans h) hq.z
  unfold InsideZ idx
  dsimp only
  constructor <;> linarith

/-- The body-frame position of the entry is within `D` of the reference point. -/
def Within (D : ℝ) (e : BodySoil ℝ) : Prop := len ⟨e.xb, e.yb, e.zb⟩ ≤ D

theorem Deep.carried {g : Grid ℝ} {R D : ℝ} (hc : 0 < g.cellXY) {q : Vec3 ℝ × Quat ℝ} (hq : Deep g R D q)
    {l : List (BodySoil ℝ)} (hl : ∀ e ∈ l, 0 < e.h → Within D e) : CarriedInside g q.1 q.2 l := by
  intro e he hp
  have h : len (vsub (movedTo q.1 q.2 e) q.1) ≤ D := by
    unfold movedTo
    rw [vadd_vsub_cancel, len_rot hq.ori]
    exact hl e he hp
  obtain ⟨h1, h2, -⟩ := abs_le_len (vsub (movedTo q.1 q.2 e) q.1)
  have a := off_of hc (h1.trans h) hq.x
  have b := off_of hc (h2.trans h) hq.y
  unfold idx
  dsimp only
  refine ⟨⟨?_, ?_⟩, ?_, ?_⟩ <;> linarith

/-- Where the rasterised body can be -/
theorem raster_bounds {g : Grid ℝ} {p : SimParam ℝ} {tol : ℝ} (S : Setup g p tol) (C : Centred g)
    (hsm : 18 * tol * g.halfZ ≤ 1) {body : Body ℝ} {R D : ℝ} (H : Reach g body R D)
    {pos : Vec3 ℝ} {ori : Quat ℝ} (hq : Deep g R D (pos, ori)) {fuel : ℕ} {s s' : SimOut ℝ}
    (hs : Sound g s) (h : calcBodyPos fuel s pos ori g body p tol = .ok s')
    (k : ℕ) (i j : ℤ) (hk : k = 0 ∨ k = 2) (hij : s'.InGrid i j) (hb : HasBody s' k i j)
    (ho : s'.body k i j ≤ s'.body (k + 1) i j) :
    |g.vectX i - pos.x| ≤ R + 2 * g.cellXY ∧ |g.vectY j - pos.y| ≤ R + 2 * g.cellXY ∧
      |s'.body (k + 1) i j - pos.z| ≤ R + 3 * g.cellZ := by
  have hc := S.cellXY
  have hz := S.zgrid.pos
  have hv := vertices_len H hc pos hq.ori
  have hvx : ∀ v ∈ bodyVertices g pos ori body, |v.x - pos.x| ≤ R ∧ |v.y - pos.y| ≤ R ∧ |v.z - pos.z| ≤ R :=
    fun v hm => ⟨(abs_le_len (vsub v pos)).1.trans (hv v hm), (abs_le_len (vsub v pos)).2.1.trans (hv v hm),
      (abs_le_len (vsub v pos)).2.2.trans (hv v hm)⟩
  let zlo : ℝ := (pos.z - R) / g.cellZ + g.halfZ - 1
  let zhi : ℝ := (pos.z + R) / g.cellZ + g.halfZ - 1
  have hzb : ∀ v ∈ bodyVertices g pos ori body, zlo ≤ (idx g v).z ∧ (idx g v).z ≤ zhi := by
    intro v hm
    have := idx_bounds (half := (g.halfZ : ℝ)) hz (hvx v hm).2.2
    unfold idx
    dsimp only [zlo, zhi]
    constructor <;> linarith
  let B : Box3 ℝ := ⟨(pos.x - R) / g.cellXY + g.halfX, (pos.x + R) / g.cellXY + g.halfX,
    (pos.y - R) / g.cellXY + g.halfY, (pos.y + R) / g.cellXY + g.halfY, zlo, zhi⟩
  have hB : ∀ v ∈ bodyVertices g pos ori body, B.Has (idx g v) := fun v hm =>
    ⟨idx_bounds hc (hvx v hm).1, idx_bounds hc (hvx v hm).2.1, hzb v hm⟩
  obtain ⟨he, -, -, hout⟩ := C18_erases sqrtLaw_real fuel s s' pos ori g body p tol hc hz S.tolPos.le
    S.tolThird B hB h
  have hin : (B.xlo - 3 / 2 ≤ i ∧ i ≤ B.xhi + 3 / 2) ∧ (B.ylo - 3 / 2 ≤ j ∧ j ≤ B.yhi + 3 / 2) := by
    by_contra hn
    obtain ⟨o1, o2⟩ := hout i j hn
    have hij' : s.InGrid i j := by
      unfold SimOut.InGrid at hij ⊢
      rw [he] at hij
      exact hij
    have h0 : s'.body k i j = 0 ∧ s'.body (k + 1) i j = 0 := by
      by_cases ha : s.bodyArea.Has i j
      · exact ⟨o1 ha _ (by omega), o1 ha _ (by omega)⟩
      · have := mt (hs.inArea k i j hij' hk) ha
        unfold HasBody at this
        push Not at this
        exact ⟨(o2 ha _).trans this.1, (o2 ha _).trans this.2⟩
    rcases hb with hb | hb
    · exact hb h0.1
    · exact hb h0.2
  have hR := H.R_nonneg hc
  have hR2 : R < g.halfZ * g.cellZ := by
    have := hq.z
    dsimp only at this
    have := abs_nonneg pos.z
    nlinarith
  have ht := C44_heights sqrtLaw_real fuel s s' pos ori g body p tol S.zgrid hc S.level S.tolPos
    S.tolThird S.buffer hs.size hs.inArea hs.wf.bodyOK.al (hq.poseOff H hc) zlo zhi hzb (by
      have : zhi - zlo = 2 * (R / g.cellZ) := by dsimp only [zlo, zhi]; ring
      rw [this]
      have h1 : R / g.cellZ ≤ g.halfZ := by rw [div_le_iff₀ hz]; exact hR2.le
      have := S.tolPos
      nlinarith) h i j (s'.body (k + 1) i j) hij ⟨k, hk, hb, ho, le_rfl⟩
  obtain ⟨⟨x1, x2⟩, y1, y2⟩ := hin
  dsimp only [B] at x1 x2 y1 y2
  have hcol : ∀ {u v half : ℝ} {n : ℤ}, (u - R) / g.cellXY + half - 3 / 2 ≤ n →
      (n : ℝ) ≤ (u + R) / g.cellXY + half + 3 / 2 → |v - (n - half) * g.cellXY| ≤ g.cellXY / 2 →
      |v - u| ≤ R + 2 * g.cellXY := by
    intro u v half n a b d
    obtain ⟨d1, d2⟩ := abs_le.mp d
    have e1 : (u - R) / g.cellXY * g.cellXY = u - R := div_mul_cancel₀ _ hc.ne'
    have e2 : (u + R) / g.cellXY * g.cellXY = u + R := div_mul_cancel₀ _ hc.ne'
    rw [abs_le]
    constructor
    · nlinarith [mul_le_mul_of_nonneg_right a hc.le]
    · nlinarith [mul_le_mul_of_nonneg_right b hc.le]
  refine ⟨hcol x1 x2 (C.x i hij.1), hcol y1 y2 (C.y j hij.2.2.1), ?_⟩
  unfold heightOf at ht
  dsimp only [zlo, zhi] at ht
  obtain ⟨d1, d2⟩ := abs_le.mp C.z
  have e1 : (pos.z - R) / g.cellZ * g.cellZ = pos.z - R := div_mul_cancel₀ _ hz.ne'
  have e2 : (pos.z + R) / g.cellZ * g.cellZ = pos.z + R := div_mul_cancel₀ _ hz.ne'
  rw [abs_le]
  constructor
  · nlinarith [ht.1]
  · nlinarith [ht.2]

/-- The body of the state after a step is the one written by `CalcBodyPos`, unless the body did not
move. -/
theorem step_raster {g : Grid ℝ} {p : SimParam ℝ} {tol : ℝ} {body : Body ℝ} {pos : Vec3 ℝ} {ori : Quat ℝ}
    {fuel : ℕ} {w : World ℝ} {r : StepResult ℝ} (hr : step fuel pos ori g body p tol w = .ok r) :
    r.world.out = w.out ∨ ∃ s, calcBodyPos fuel w.out pos ori g body p tol = .ok s ∧
      r.world.out.body = s.body ∧ (∀ i j, r.world.out.InGrid i j → s.InGrid i j) := by
  unfold step at hr
  rcases hcm : checkBodyMovement pos ori g body with ⟨moved, warns⟩
  rw [hcm] at hr
  dsimp only at hr
  cases moved with
  | false =>
    simp only [Bool.not_false, if_true, pure_eq_ok, Except.ok.injEq] at hr
    subst hr
    exact .inl rfl
  | true =>
    simp only [Bool.not_true, Bool.false_eq_true, if_false] at hr
    obtain ⟨s, h1, hr⟩ := bind_eq_ok.mp hr
    obtain ⟨⟨w2, b2⟩, h2, hr⟩ := bind_eq_ok.mp hr
    obtain ⟨w3, h3, hr⟩ := bind_eq_ok.mp hr
    obtain ⟨⟨w4, it⟩, h4, hr⟩ := bind_eq_ok.mp hr
    simp only [pure_eq_ok, Except.ok.injEq] at hr
    subst hr
    have k2 := (updateBodySoil_loc _ _ _ _ _ _ _ h2).1.body
    have k3 := (moveIntersectingCells_loc _ _ _ _ _ _ h3).body
    have k4 := (relaxLoop_frame _ _ _ _ _ _ _ _ h4).1
    have kk : SameBody s w4.out := (k2.trans k3).trans k4
    refine .inr ⟨s, h1, kk.1, fun i j hij => ?_⟩
    unfold SimOut.InGrid at hij ⊢
    rwa [← kk.2.2.1, ← kk.2.2.2]

/-- The invariant of the records over one step -/
theorem step_within {g : Grid ℝ} {p : SimParam ℝ} {tol : ℝ} (S : Setup g p tol) (C : Centred g)
    (hsm : 18 * tol * g.halfZ ≤ 1) {body : Body ℝ} {R D : ℝ} (H : Reach g body R D)
    {pos : Vec3 ℝ} {ori : Quat ℝ} (hq : Deep g R D (pos, ori)) {fuel : ℕ} {w : World ℝ}
    (hs : Sound g w.out) (hl : ∀ e ∈ w.out.bodySoilPos, 0 < e.h → Within D e) {r : StepResult ℝ}
    (hr : step fuel pos ori g body p tol w = .ok r) :
    ∀ e ∈ r.world.out.bodySoilPos, 0 < e.h → Within D e := by
  intro e he hp
  have hoff := hq.poseOff H S.cellXY
  rcases C47_step sqrtLaw_real g p tol S fuel pos ori hq.ori body hoff w hs r hr e he hp with
    ⟨e0, m0, p0, hx, hy, hz⟩ | hon
  · have := hl e0 m0 p0
    unfold Within at this ⊢
    rwa [hx, hy, hz]
  · have hS' := (step_sound sqrtLaw_real S fuel pos ori body hoff w hs r hr).1
    rcases step_raster hr with heq | ⟨s, h1, hb, hg⟩
    · rw [heq] at he
      exact hl e he hp
    · have hord := hS'.wf.bodyOK.order _ _ _ hon.inGrid hon.layer hon.present
      have hpr : HasBody s e.ind e.ii e.jj := by
        have := hon.present
        unfold HasBody at this ⊢
        rwa [hb] at this
      obtain ⟨a, b, c⟩ := raster_bounds S C hsm H hq hs h1 e.ind e.ii e.jj hon.layer (hg _ _ hon.inGrid)
        hpr (by rw [← hb]; exact hord.le)
      unfold Within
      have e1 : len ⟨e.xb, e.yb, e.zb⟩ = len (vsub (movedTo pos ori e) pos) := by
        unfold movedTo
        rw [vadd_vsub_cancel, len_rot hq.ori]
      have hpl := hon.place
      dsimp only at hpl
      rw [e1, hpl, hb]
      refine abs_le_of_sq_le_sq' (a := len _) ?_ H.nonneg |>.2
      rw [len_sq]
      unfold dot vsub
      dsimp only
      have a' := sq_le_sq' (abs_le.mp a).1 (abs_le.mp a).2
      have b' := sq_le_sq' (abs_le.mp b).1 (abs_le.mp b).2
      have c' := sq_le_sq' (abs_le.mp c).1 (abs_le.mp c).2
      nlinarith [H.grown]

/-- A history of deep poses returns. -/
theorem run_ok {g : Grid ℝ} {p : SimParam ℝ} {tol : ℝ} (S : Setup g p tol) (C : Centred g)
    (hsm : 18 * tol * g.halfZ ≤ 1) {R D : ℝ} (qs : List (Vec3 ℝ × Quat ℝ))
    (hq : ∀ q ∈ qs, Deep g R D q) {body : Body ℝ} (H : Reach g body R D) {w : World ℝ}
    (hs : Sound g w.out) (hl : ∀ e ∈ w.out.bodySoilPos, 0 < e.h → Within D e) :
    ∃ r N, ∀ fuel, N ≤ fuel → run fuel g p tol qs body w = .ok r := by
  induction qs generalizing body w with
  | nil => exact ⟨_, 0, fun _ _ => rfl⟩
  | cons q qs ih =>
    obtain ⟨pos, ori⟩ := q
    have hd := hq _ List.mem_cons_self
    obtain ⟨N, hN⟩ := step_ok sqrtLaw_real S hsm pos ori body (hd.poseOff H S.cellXY)
      (hd.insideZ H S.cellXY S.zgrid.pos) w hs (hd.carried S.cellXY hl)
    obtain ⟨r, hr⟩ := hN N le_rfl
    have hw := step_within S C hsm H hd hs hl hr
    have hS := (step_sound sqrtLaw_real S N pos ori body (hd.poseOff H S.cellXY) w hs r hr).1
    have Hb : Reach g r.body R D := by
      cases hu : r.updated with
      | false => rw [((C12_step N pos ori g body p tol w r hr).1 hu).2]; exact H
      | true =>
        rw [(C12_step N pos ori g body p tol w r hr).2 hu]
        exact ⟨H.width, H.joint, H.base, H.teeth, H.nonneg, H.grown⟩
    obtain ⟨r', N', h'⟩ := ih (fun q hm => hq q (List.mem_cons_of_mem _ hm)) Hb hS hw
    refine ⟨r', max N N', fun fuel hf => ?_⟩
    unfold run
    rw [step_ext (le_trans (le_max_left _ _) hf) pos ori g body p tol w r hr, ok_bind]
    exact h' fuel (le_trans (le_max_right _ _) hf)

end Soil

import Verif.Proof.CheckFlt
import Verif.Props.CornerAcc
import Verif.Props.Step

/-! # Property C72: the movement check in rounded arithmetic

`CheckBodyMovement` compares the largest displacement of the six corners with half the smaller cell size.  In rounded
arithmetic the comparison is right outside a band of a few units in the last place around half a cell. -/

namespace Soil

open FOps

section Rounded

variable {R : Rounding} {prec : ℕ} {u : ℚ}

/-- If no corner has moved far, as computed, no reference point has moved far, exactly. -/
theorem corners_lag (hR : R.rnd = roundBinary prec) (hp : 1 ≤ prec) (hu : 2 ^ (-(prec : ℤ)) ≤ u) (hu' : u ≤ 1 / 500)
    (hs : SqrtAccurate R u) {c : ℚ} (c0 : 0 < c) (body : Body (Flt R))
    (pos : Vec3 (Flt R)) (ori : Quat (Flt R)) (hq : 0 < qnormSq body.ori.exact) (hq' : 0 < qnormSq ori.exact) {r L : ℚ}
    (hb : ProperTriangle u r body) (v : Vec3 (Flt R)) (hv : v ∈ [body.jInit, body.bInit, body.tInit])
    (small : let f := calcBodyCornerPos body.pos body.ori body
      let n := calcBodyCornerPos pos ori body
      (FOps.maxL (cornerDist f.jr n.jr) [cornerDist f.jl n.jl, cornerDist f.br n.br, cornerDist f.bl n.bl, cornerDist f.tr n.tr, cornerDist f.tl n.tl]).val ≤
        R.rnd (R.rnd (1 / 2) * c)) :
    let E := vadd (calcRotationQuaternion body.ori.exact v.exact) body.pos.exact
    let E' := vadd (calcRotationQuaternion ori.exact v.exact) pos.exact
    (|E.x| ≤ L ∧ |E.y| ≤ L ∧ |E.z| ≤ L) → (|E'.x| ≤ L ∧ |E'.y| ≤ L ∧ |E'.z| ≤ L) →
    vdist2 E E' ≤ (c / 2 * (1 + 6 * u) + 4 * u * (64 * r + 3 * L + body.width.val)) ^ 2 := by
  intro E E' hE hE'
  have A := accurate_of hR hp hu hu' hs
  have u0 := A.pos
  have w0 := hb.width
  have L0 : 0 ≤ L := (abs_nonneg _).trans hE.1
  have r0 := hb.radius
  set f := calcBodyCornerPos body.pos body.ori body with hf
  set n := calcBodyCornerPos pos ori body with hn
  have small : ∀ d ∈ [cornerDist f.jr n.jr, cornerDist f.jl n.jl, cornerDist f.br n.br, cornerDist f.bl n.bl, cornerDist f.tr n.tr, cornerDist f.tl n.tl],
      d.val ≤ R.rnd (R.rnd (1 / 2) * c) := fun d hd => (le_maxL_flt _ _ d hd).trans small
  have near : ∀ {a b a' b' : Vec3 (Flt R)}, (a, b, v) ∈ sidesOf (body.pos, body.ori) body → (a', b', v) ∈ sidesOf (pos, ori) body →
      (cornerDist a a').val ≤ R.rnd (R.rnd (1 / 2) * c) → (cornerDist b b').val ≤ R.rnd (R.rnd (1 / 2) * c) →
      vdist2 E E' ≤ (c / 2 * (1 + 6 * u) + 4 * u * (64 * r + 3 * L + body.width.val)) ^ 2 := by
    intro a b a' b' m m' ha hb'
    have k := mid_move (below_half A hu' c0 a a' ha) (below_half A hu' c0 b b' hb')
    obtain ⟨x1, y1, z1⟩ := C71_middle hR hp hu hu' hs (body.pos, body.ori) hq body hb _ m
    obtain ⟨x2, y2, z2⟩ := C71_middle hR hp hu hu' hs (pos, ori) hq' body hb _ m'
    have up : ∀ e : ℚ, e ≤ L → u * (64 * r + 3 * e + body.width.val) ≤ u * (64 * r + 3 * L + body.width.val) :=
      fun e he => mul_le_mul_of_nonneg_left (by linarith) u0
    have t1 : vdist2 (midpt a.exact b.exact) E ≤ _ := of_coords (x1.trans (up _ hE.1)) (y1.trans (up _ hE.2.1)) (z1.trans (up _ hE.2.2))
    have t2 : vdist2 (midpt a'.exact b'.exact) E' ≤ _ := of_coords (x2.trans (up _ hE'.1)) (y2.trans (up _ hE'.2.1)) (z2.trans (up _ hE'.2.2))
    rw [vdist2_comm] at t1
    rw [← mul_one (_ ^ 2)] at t1 t2 k
    have s1 := vdist2_tri (by positivity) (by positivity) zero_le_one t1 k
    have s2 := vdist2_tri (by positivity) (by positivity) zero_le_one s1 t2
    rw [mul_one] at s2
    refine s2.trans (le_of_eq ?_)
    ring
  simp only [List.mem_cons, List.not_mem_nil, or_false] at hv
  rcases hv with e | e | e <;> subst e
  · exact near (a := f.jr) (b := f.jl) (a' := n.jr) (b' := n.jl) (by simp [sidesOf, hf]) (by simp [sidesOf, hn]) (small _ (by simp)) (small _ (by simp))
  · exact near (a := f.br) (b := f.bl) (a' := n.br) (b' := n.bl) (by simp [sidesOf, hf]) (by simp [sidesOf, hn]) (small _ (by simp)) (small _ (by simp))
  · exact near (a := f.tr) (b := f.tl) (a' := n.tr) (b' := n.tl) (by simp [sidesOf, hf]) (by simp [sidesOf, hn]) (small _ (by simp)) (small _ (by simp))

/-- **C72** (noticed). If one of the three reference points, posed exactly, moves by more than half the smaller cell size (and a
rounding error), the movement is not ignored, however the body turns. -/
theorem C72_noticed (hR : R.rnd = roundBinary prec) (hp : 1 ≤ prec) (hu : 2 ^ (-(prec : ℤ)) ≤ u) (hu' : u ≤ 1 / 500)
    (hs : SqrtAccurate R u) (g : Grid (Flt R)) (hx : 0 < g.cellXY.val) (hz : 0 < g.cellZ.val) (body : Body (Flt R))
    (pos : Vec3 (Flt R)) (ori : Quat (Flt R)) (hq : 0 < qnormSq body.ori.exact) (hq' : 0 < qnormSq ori.exact) {r L : ℚ}
    (hb : ProperTriangle u r body) (v : Vec3 (Flt R)) (hv : v ∈ [body.jInit, body.bInit, body.tInit]) :
    let E := vadd (calcRotationQuaternion body.ori.exact v.exact) body.pos.exact
    let E' := vadd (calcRotationQuaternion ori.exact v.exact) pos.exact
    (|E.x| ≤ L ∧ |E.y| ≤ L ∧ |E.z| ≤ L) → (|E'.x| ≤ L ∧ |E'.y| ≤ L ∧ |E'.z| ≤ L) →
    (Min.min g.cellXY.val g.cellZ.val / 2 * (1 + 6 * u) + 4 * u * (64 * r + 3 * L + body.width.val)) ^ 2 < vdist2 E E' →
    (checkBodyMovement pos ori g body).1 = true := by
  intro E E' hE hE' hfar
  by_contra hcon
  refine absurd hfar (not_lt.mpr (corners_lag hR hp hu hu' hs (lt_min hx hz) body pos ori hq hq' hb v hv ?_ hE hE'))
  dsimp only
  rw [← min_flt]
  by_contra hlt
  have no := decide_eq_false (not_lt.mpr (not_le.mp hlt).le)
  refine hcon ?_
  unfold checkBodyMovement
  dsimp only
  rw [if_neg]
  · split_ifs <;> rfl
  · intro h
    exact Bool.false_ne_true (no.symm.trans h)

/-- **C72** (warned). If one of the three reference points, posed exactly, moves by more than two of the smaller cells (and a rounding
error), the movement is carried out with the warning of a large movement. -/
theorem C72_warned (hR : R.rnd = roundBinary prec) (hp : 1 ≤ prec) (hu : 2 ^ (-(prec : ℤ)) ≤ u) (hu' : u ≤ 1 / 500)
    (hs : SqrtAccurate R u) (g : Grid (Flt R)) (hx : 0 < g.cellXY.val) (hz : 0 < g.cellZ.val) (body : Body (Flt R))
    (pos : Vec3 (Flt R)) (ori : Quat (Flt R)) (hq : 0 < qnormSq body.ori.exact) (hq' : 0 < qnormSq ori.exact) {r L : ℚ}
    (hb : ProperTriangle u r body) (v : Vec3 (Flt R)) (hv : v ∈ [body.jInit, body.bInit, body.tInit]) :
    let E := vadd (calcRotationQuaternion body.ori.exact v.exact) body.pos.exact
    let E' := vadd (calcRotationQuaternion ori.exact v.exact) pos.exact
    (|E.x| ≤ L ∧ |E.y| ≤ L ∧ |E.z| ≤ L) → (|E'.x| ≤ L ∧ |E'.y| ≤ L ∧ |E'.z| ≤ L) →
    (2 * Min.min g.cellXY.val g.cellZ.val * (1 + 6 * u) + 4 * u * (64 * r + 3 * L + body.width.val)) ^ 2 < vdist2 E E' →
    checkBodyMovement pos ori g body = (true, [.largeMovement]) := by
  intro E E' hE hE' hfar
  have A := accurate_of hR hp hu hu' hs
  have u0 := A.pos
  have w0 := hb.width
  have r0 := hb.radius
  have L0 : 0 ≤ L := (abs_nonneg _).trans hE.1
  have c0 : 0 < Min.min g.cellXY.val g.cellZ.val := lt_min hx hz
  have hn := C72_noticed hR hp hu hu' hs g hx hz body pos ori hq hq' hb v hv hE hE' (lt_of_le_of_lt (pow_le_pow_left₀ (by positivity) (by
    have : Min.min g.cellXY.val g.cellZ.val / 2 * (1 + 6 * u) ≤ 2 * Min.min g.cellXY.val g.cellZ.val * (1 + 6 * u) :=
      mul_le_mul_of_nonneg_right (by linarith) (by positivity)
    linarith) 2) hfar)
  have two : R.rnd 2 = 2 := by
    have := A.binary.fix 1 1 (by rw [abs_one]; exact one_le_pow₀ (by norm_num))
    norm_num at this ⊢
    exact this
  unfold checkBodyMovement at hn ⊢
  dsimp only at hn ⊢
  split_ifs at hn ⊢ with h1 h2
  · rfl
  · exfalso
    refine absurd hfar (not_lt.mpr ?_)
    have k := corners_lag hR hp hu hu' hs (c := 4 * Min.min g.cellXY.val g.cellZ.val) (by positivity) body pos ori hq hq' hb v hv (by
      dsimp only
      rw [← min_flt, A.halves]
      by_contra hlt
      refine h2 ?_
      have hlt' := not_le.mp hlt
      have e : (1 / 2 : ℚ) * (4 * (FOps.min g.cellXY g.cellZ).val) = R.rnd 2 * (FOps.min g.cellXY g.cellZ).val := by rw [two]; ring
      rw [e] at hlt'
      have := decide_eq_true hlt'
      exact this) hE hE'
    refine k.trans (le_of_eq ?_)
    ring

/-- **C72** (ignored). A shift of the body without rotation by less than half the smaller cell size (less a rounding error) is reported
as no movement, without a warning. -/
theorem C72_ignored (hR : R.rnd = roundBinary prec) (hp : 1 ≤ prec) (hu : 2 ^ (-(prec : ℤ)) ≤ u) (hu' : u ≤ 1 / 500)
    (hs : SqrtAccurate R u) (g : Grid (Flt R)) (hx : 0 < g.cellXY.val) (hz : 0 < g.cellZ.val) (body : Body (Flt R))
    (pos : Vec3 (Flt R)) (hq : 0 < qnormSq body.ori.exact) {r L d : ℚ} (hb : ProperTriangle u r body)
    (hE : ∀ v ∈ [body.jInit, body.bInit, body.tInit], ∀ t ∈ [body.pos, pos],
      let E := vadd (calcRotationQuaternion body.ori.exact v.exact) t.exact; |E.x| ≤ L ∧ |E.y| ≤ L ∧ |E.z| ≤ L)
    (hd : 0 ≤ d) (h : vdist2 body.pos.exact pos.exact ≤ d ^ 2)
    (hle : d + u * (6 * r + 9 * L + 3 * body.width.val) ≤ Min.min g.cellXY.val g.cellZ.val / 2 * (1 - 6 * u)) :
    checkBodyMovement pos body.ori g body = (false, []) := by
  have A := accurate_of hR hp hu hu' hs
  have u0 : 0 < u := lt_of_lt_of_le (two_zpow_pos _) hu
  have w0 := hb.width
  have r0 := hb.radius
  have L0 : 0 ≤ L := (abs_nonneg _).trans (hE body.jInit (by simp) pos (by simp)).1
  set c := Min.min g.cellXY.val g.cellZ.val with hc
  have c0 : 0 < c := lt_min hx hz
  obtain ⟨n1, n2⟩ := normal_err A hu' u0 hb.radius body.ori hq body.jInit body.bInit body.tInit hb.j hb.b hb.t hb.area
  obtain ⟨-, o2⟩ := off_err A hu' (w := body.width.val) n1 n2
  set o : Vec3 (Flt R) := Vec3.smulF (ofRat (1 / 2) *ᶠ body.width) (calcNormal (calcRotationQuaternion body.ori body.jInit)
    (calcRotationQuaternion body.ori body.bInit) (calcRotationQuaternion body.ori body.tInit)) with ho
  have up : ∀ a b : Vec3 (Flt R), vdist2 a.exact b.exact ≤ (d + u * (6 * r + 9 * L + 3 * body.width.val)) ^ 2 →
      (cornerDist a b).val < R.rnd (R.rnd (1 / 2) * c) := by
    intro a b hab
    exact half_below A hu' u0 c0 a b (hab.trans (pow_le_pow_left₀ (by positivity) hle 2))
  have pj := slide A hu' r0.le w0 hd body.ori body.pos pos hq body.jInit o hb.j o2 (hE _ (by simp)) h
  have pb := slide A hu' r0.le w0 hd body.ori body.pos pos hq body.bInit o hb.b o2 (hE _ (by simp)) h
  have pt := slide A hu' r0.le w0 hd body.ori body.pos pos hq body.tInit o hb.t o2 (hE _ (by simp)) h
  have key : Flt.val (FOps.maxL (cornerDist (calcBodyCornerPos body.pos body.ori body).jr (calcBodyCornerPos pos body.ori body).jr)
    [cornerDist (calcBodyCornerPos body.pos body.ori body).jl (calcBodyCornerPos pos body.ori body).jl,
     cornerDist (calcBodyCornerPos body.pos body.ori body).br (calcBodyCornerPos pos body.ori body).br,
     cornerDist (calcBodyCornerPos body.pos body.ori body).bl (calcBodyCornerPos pos body.ori body).bl,
     cornerDist (calcBodyCornerPos body.pos body.ori body).tr (calcBodyCornerPos pos body.ori body).tr,
     cornerDist (calcBodyCornerPos body.pos body.ori body).tl (calcBodyCornerPos pos body.ori body).tl]) <
      R.rnd (R.rnd (1 / 2) * (FOps.min g.cellXY g.cellZ).val) := by
    rw [min_flt, ← hc]
    have m := maxL_any (cornerDist (calcBodyCornerPos body.pos body.ori body).jr (calcBodyCornerPos pos body.ori body).jr)
        [cornerDist (calcBodyCornerPos body.pos body.ori body).jl (calcBodyCornerPos pos body.ori body).jl,
         cornerDist (calcBodyCornerPos body.pos body.ori body).br (calcBodyCornerPos pos body.ori body).br,
         cornerDist (calcBodyCornerPos body.pos body.ori body).bl (calcBodyCornerPos pos body.ori body).bl,
         cornerDist (calcBodyCornerPos body.pos body.ori body).tr (calcBodyCornerPos pos body.ori body).tr,
         cornerDist (calcBodyCornerPos body.pos body.ori body).tl (calcBodyCornerPos pos body.ori body).tl]
    simp only [List.mem_cons, List.not_mem_nil, or_false] at m
    rcases m with e | e | e | e | e | e <;> rw [e]
    · exact up _ _ pj.1
    · exact up _ _ pj.2
    · exact up _ _ pb.1
    · exact up _ _ pb.2
    · exact up _ _ pt.1
    · exact up _ _ pt.2
  have key' := decide_eq_true key
  unfold checkBodyMovement
  dsimp only
  rw [if_pos]
  exact key'

/-- where a point of the body is at a pose, in exact arithmetic -/
def placedAt (q : Vec3 (Flt R) × Quat (Flt R)) (v : Vec3 (Flt R)) : Vec3 ℚ := vadd (calcRotationQuaternion q.2.exact v.exact) q.1.exact

/-- A pose with an orientation, at which the coordinates of the reference points are at most `L` -/
def PoseWithin (L : ℚ) (body : Body (Flt R)) (q : Vec3 (Flt R) × Quat (Flt R)) : Prop :=
  0 < qnormSq q.2.exact ∧ ∀ v ∈ [body.jInit, body.bInit, body.tInit], |(placedAt q v).x| ≤ L ∧ |(placedAt q v).y| ≤ L ∧ |(placedAt q v).z| ≤ L

/-- **C72** (never far behind). After any sequence of steps, the pose at which the body is simulated has each reference point within
half the smaller cell size (and a rounding error) of where the last requested pose has it: movements that are ignored do not add up. -/
theorem C72_follows (hR : R.rnd = roundBinary prec) (hp : 1 ≤ prec) (hu : 2 ^ (-(prec : ℤ)) ≤ u) (hu' : u ≤ 1 / 500)
    (hs : SqrtAccurate R u) (g : Grid (Flt R)) (hx : 0 < g.cellXY.val) (hz : 0 < g.cellZ.val) (p : SimParam (Flt R)) (tol : Flt R) (fuel : ℕ)
    {r L : ℚ} (qs : List (Vec3 (Flt R) × Quat (Flt R))) (q : Vec3 (Flt R) × Quat (Flt R)) (body : Body (Flt R)) (w : World (Flt R))
    (hb : ProperTriangle u r body) (h0 : PoseWithin L body (body.pos, body.ori)) (hqs : ∀ t ∈ qs, PoseWithin L body t)
    (hq : PoseWithin L body q) {body' : Body (Flt R)} {w' : World (Flt R)} (h : run fuel g p tol (qs ++ [q]) body w = .ok (body', w')) :
    ∀ v ∈ [body.jInit, body.bInit, body.tInit], vdist2 (placedAt (body'.pos, body'.ori) v) (placedAt q v) ≤
      (Min.min g.cellXY.val g.cellZ.val / 2 * (1 + 6 * u) + 4 * u * (64 * r + 3 * L + body.width.val)) ^ 2 := by
  induction qs generalizing body w with
  | nil =>
    obtain ⟨pos, ori⟩ := q
    intro v hv
    simp only [List.nil_append] at h
    unfold run at h
    obtain ⟨r1, h1, h2⟩ := bind_eq_ok.mp h
    unfold run at h2
    cases h2
    have hc := C12_step fuel pos ori g body p tol w r1 h1
    cases hup : r1.updated with
    | true =>
      rw [hc.2 hup]
      have z : vdist2 (placedAt (pos, ori) v) (placedAt (pos, ori) v) = 0 := by simp [vdist2, dot, vsub]
      show vdist2 (placedAt (pos, ori) v) (placedAt (pos, ori) v) ≤ _
      rw [z]
      exact sq_nonneg _
    | false =>
      rw [(hc.1 hup).2]
      by_contra hcon
      have hm := C72_noticed hR hp hu hu' hs g hx hz body pos ori h0.1 hq.1 hb v hv (h0.2 v hv) (hq.2 v hv) (not_le.mp hcon)
      unfold step at h1
      rcases hk : checkBodyMovement pos ori g body with ⟨moved, warns⟩
      rw [hk] at h1 hm
      dsimp only at h1 hm
      subst hm
      simp only [Bool.not_true, Bool.false_eq_true, if_false] at h1
      obtain ⟨s, -, h1⟩ := bind_eq_ok.mp h1
      obtain ⟨⟨w1, b1⟩, -, h1⟩ := bind_eq_ok.mp h1
      obtain ⟨w2, -, h1⟩ := bind_eq_ok.mp h1
      obtain ⟨⟨w3, it⟩, -, h1⟩ := bind_eq_ok.mp h1
      cases h1
      cases hup
  | cons t qs ih =>
    obtain ⟨pos, ori⟩ := t
    rw [List.cons_append] at h
    unfold run at h
    obtain ⟨r1, h1, h2⟩ := bind_eq_ok.mp h
    have hc := C12_step fuel pos ori g body p tol w r1 h1
    have hrest : ∀ t ∈ qs, PoseWithin L body t := fun t ht => hqs t (List.mem_cons_of_mem _ ht)
    cases hup : r1.updated with
    | false =>
      rw [(hc.1 hup).2] at h2
      exact ih body _ hb h0 hrest hq h2
    | true =>
      rw [hc.2 hup] at h2
      exact ih { body with pos := pos, ori := ori } _ ⟨hb.radius, hb.width, hb.j, hb.b, hb.t, hb.area⟩ (hqs _ List.mem_cons_self) hrest hq h2

end Rounded

/-- the bucket of the example at its first pose -/
def chkBody : Body (Flt plcR) := { plcBody .bucket with pos := plcPose.1, ori := plcPose.2 }

theorem chkTriangle : ProperTriangle (2 ^ (-23 : ℤ)) 1 chkBody :=
  ⟨one_pos, plcTriangle.width, plcTriangle.j, plcTriangle.b, plcTriangle.t, plcTriangle.area⟩

/-- Its movement to the second pose is noticed. -/
example : (checkBodyMovement plcPose2.1 plcPose2.2 plcGrid chkBody).1 = true :=
  C72_noticed (R := plcR) (prec := 24) rfl (by norm_num) (by norm_num) (by norm_num) plcR_sqrt plcGrid (by decide +kernel) (by decide +kernel)
    chkBody plcPose2.1 plcPose2.2 (by decide +kernel) (by decide +kernel) (L := 1) chkTriangle chkBody.jInit (by simp)
    (by decide +kernel) (by decide +kernel) (by decide +kernel)

/-- a shift by three tenths -/
def chkFar : Vec3 (Flt plcR) := ⟨(1 / 5 : ℚ), (1 / 30 : ℚ), (1 / 4 : ℚ)⟩

/-- With cells of an eighth it is carried out with a warning. -/
example : checkBodyMovement chkFar chkBody.ori plcGrid chkBody = (true, [.largeMovement]) :=
  C72_warned (R := plcR) (prec := 24) rfl (by norm_num) (by norm_num) (by norm_num) plcR_sqrt plcGrid (by decide +kernel) (by decide +kernel)
    chkBody chkFar chkBody.ori (by decide +kernel) (by decide +kernel) (L := 1) chkTriangle chkBody.jInit (by simp)
    (by decide +kernel) (by decide +kernel) (by decide +kernel)

/-- a shift by a twentieth -/
def chkPos : Vec3 (Flt plcR) := ⟨(-1 / 20 : ℚ), (1 / 30 : ℚ), (1 / 4 : ℚ)⟩

theorem chkNear : ∀ v ∈ [chkBody.jInit, chkBody.bInit, chkBody.tInit], ∀ t ∈ [chkBody.pos, chkPos],
    let E := vadd (calcRotationQuaternion chkBody.ori.exact v.exact) t.exact; |E.x| ≤ 1 ∧ |E.y| ≤ 1 ∧ |E.z| ≤ 1 := by
  have : ([chkBody.jInit, chkBody.bInit, chkBody.tInit].all fun v => [chkBody.pos, chkPos].all fun t =>
      decide (|(vadd (calcRotationQuaternion chkBody.ori.exact v.exact) t.exact).x| ≤ 1) &&
      decide (|(vadd (calcRotationQuaternion chkBody.ori.exact v.exact) t.exact).y| ≤ 1) &&
      decide (|(vadd (calcRotationQuaternion chkBody.ori.exact v.exact) t.exact).z| ≤ 1)) = true := by decide +kernel
  intro v hv t ht
  have := List.all_eq_true.mp (List.all_eq_true.mp this v hv) t ht
  simp only [Bool.and_eq_true, decide_eq_true_eq] at this
  exact ⟨this.1.1, this.1.2, this.2⟩

/-- With cells of an eighth it is not noticed. -/
example : checkBodyMovement chkPos chkBody.ori plcGrid chkBody = (false, []) :=
  C72_ignored (R := plcR) (prec := 24) rfl (by norm_num) (by norm_num) (by norm_num) plcR_sqrt plcGrid (by decide +kernel) (by decide +kernel)
    chkBody chkPos (by decide +kernel) (L := 1) (d := 1 / 20) chkTriangle chkNear (by norm_num) (by decide +kernel) (by decide +kernel)

theorem chkPose {q : Vec3 (Flt plcR) × Quat (Flt plcR)} (h : (decide (0 < qnormSq q.2.exact) && [chkBody.jInit, chkBody.bInit, chkBody.tInit].all fun v =>
      decide (|(placedAt q v).x| ≤ 1) && decide (|(placedAt q v).y| ≤ 1) && decide (|(placedAt q v).z| ≤ 1)) = true) : PoseWithin 1 chkBody q := by
  rw [Bool.and_eq_true] at h
  refine ⟨of_decide_eq_true h.1, fun v hv => ?_⟩
  have := List.all_eq_true.mp h.2 v hv
  simp only [Bool.and_eq_true, decide_eq_true_eq] at this
  exact ⟨this.1.1, this.1.2, this.2⟩

/-- three hundredths on from the second pose -/
def chkPose3 : Vec3 (Flt plcR) × Quat (Flt plcR) := (⟨(13 / 100 : ℚ), (1 / 30 : ℚ), (3 / 10 : ℚ)⟩, plcPose2.2)

/-- With cells of an eighth, of these two steps only the first is carried out, and the joint is within 0.063 of where it should be. -/
example : ∃ body' w', run 100 plcGrid plcParam (1 / 64 : ℚ) ([plcPose2] ++ [chkPose3]) chkBody plcWorld = .ok (body', w') ∧
    (body'.pos.x.val = 1 / 10) ∧ vdist2 (placedAt (body'.pos, body'.ori) chkBody.jInit) (placedAt chkPose3 chkBody.jInit) ≤ (63 / 1000) ^ 2 := by
  have key : (match run 100 plcGrid plcParam (1 / 64 : ℚ) ([plcPose2] ++ [chkPose3]) chkBody plcWorld with
    | .ok r => decide (r.1.pos.x.val = 1 / 10)
    | .error _ => false) = true := by decide +kernel
  cases h : run 100 plcGrid plcParam (1 / 64 : ℚ) ([plcPose2] ++ [chkPose3]) chkBody plcWorld with
  | error e => rw [h] at key; cases key
  | ok r =>
    rw [h] at key
    refine ⟨r.1, r.2, rfl, of_decide_eq_true key, ?_⟩
    have k := C72_follows (R := plcR) (prec := 24) (u := 2 ^ (-23 : ℤ)) rfl (by norm_num) (by norm_num) (by norm_num) plcR_sqrt plcGrid (by decide +kernel)
      (by decide +kernel) plcParam (1 / 64 : ℚ) 100 [plcPose2] chkPose3 chkBody plcWorld chkTriangle
      (chkPose (q := (chkBody.pos, chkBody.ori)) (by decide +kernel))
      (fun t ht => by
        rw [List.mem_singleton] at ht
        subst ht
        exact chkPose (by decide +kernel)) (chkPose (by decide +kernel)) h chkBody.jInit (by simp)
    refine k.trans ?_
    decide +kernel

end Soil

import Verif.Props.Quaternion

/-! # Properties C08–C11: side normal, corners, movement check -/

set_option linter.unusedSectionVars false
set_option linter.unusedSimpArgs false

namespace Soil

/-- The three points are not on one line -/
def NonCollinear (a b c : Vec3 ℝ) : Prop := cross (vsub b a) (vsub c a) ≠ ⟨0, 0, 0⟩

theorem dot_self_pos {v : Vec3 ℝ} (h : v ≠ ⟨0, 0, 0⟩) : 0 < dot v v := by
  have h0 : 0 ≤ dot v v := by
    unfold dot
    have := mul_self_nonneg v.x; have := mul_self_nonneg v.y; have := mul_self_nonneg v.z
    linarith
  rcases h0.lt_or_eq with h1 | h1
  · exact h1
  · exfalso
    apply h
    unfold dot at h1
    have hx := mul_self_nonneg v.x; have hy := mul_self_nonneg v.y; have hz := mul_self_nonneg v.z
    apply Vec3.ext'
    · exact mul_self_eq_zero.mp (by linarith)
    · exact mul_self_eq_zero.mp (by linarith)
    · exact mul_self_eq_zero.mp (by linarith)

theorem calcNormal_eq (a b c : Vec3 ℝ) :
    calcNormal a b c = vsmul (1 / Real.sqrt (dot (cross (vsub b a) (vsub c a))
      (cross (vsub b a) (vsub c a)))) (cross (vsub b a) (vsub c a)) := by
  unfold calcNormal
  simp only [ex_add, ex_sub, ex_mul, ex_div, ex_sqrt, Transc.sqrt, vsmul, cross, vsub, dot]
  apply Vec3.ext' <;> dsimp only <;> rw [one_div, div_eq_inv_mul]

/-- **C08**. The side normal has length one, is orthogonal to both edges and points to the
right-handed side. -/
theorem C08_normal (a b c : Vec3 ℝ) (h : NonCollinear a b c) :
    dot (calcNormal a b c) (calcNormal a b c) = 1 ∧
    dot (calcNormal a b c) (vsub b a) = 0 ∧ dot (calcNormal a b c) (vsub c a) = 0 ∧
    0 < dot (calcNormal a b c) (cross (vsub b a) (vsub c a)) := by
  rw [calcNormal_eq]
  set w := cross (vsub b a) (vsub c a) with hw
  have hp : 0 < dot w w := dot_self_pos h
  have hs : 0 < Real.sqrt (dot w w) := Real.sqrt_pos.mpr hp
  have hss : Real.sqrt (dot w w) * Real.sqrt (dot w w) = dot w w := Real.mul_self_sqrt hp.le
  have hd : ∀ (k : ℝ) u v, dot (vsmul k u) v = k * dot u v := by
    intro k u v; unfold dot vsmul; ring
  have hd' : ∀ (k : ℝ) u v, dot u (vsmul k v) = k * dot u v := by
    intro k u v; unfold dot vsmul; ring
  refine ⟨?_, ?_, ?_, ?_⟩
  · rw [hd, hd']; field_simp; nlinarith
  · rw [hd, hw]; unfold dot cross vsub; ring
  · rw [hd, hw]; unfold dot cross vsub; ring
  · rw [hd]; positivity

/-- **C08**. Swapping two points flips the normal. -/
theorem C08_swap (a b c : Vec3 ℝ) : calcNormal a c b = vsmul (-1) (calcNormal a b c) := by
  rw [calcNormal_eq, calcNormal_eq]
  have h : cross (vsub c a) (vsub b a) = vsmul (-1) (cross (vsub b a) (vsub c a)) := by
    unfold cross vsub vsmul; apply Vec3.ext' <;> dsimp only <;> ring
  have h2 : ∀ w : Vec3 ℝ, dot (vsmul (-1) w) (vsmul (-1) w) = dot w w := by
    intro w; unfold dot vsmul; ring
  rw [h, h2]
  unfold vsmul; apply Vec3.ext' <;> dsimp only <;> ring

/-- **C08**. The normal of the posed points is the rotated normal. -/
theorem C08_equivariant (q : Quat ℝ) (hq : qnormSq q ≠ 0) (t a b c : Vec3 ℝ) :
    calcNormal (vadd (calcRotationQuaternion q a) t) (vadd (calcRotationQuaternion q b) t)
      (vadd (calcRotationQuaternion q c) t) = calcRotationQuaternion q (calcNormal a b c) := by
  have hsub : ∀ u v, vsub (vadd (calcRotationQuaternion q u) t) (vadd (calcRotationQuaternion q v) t)
      = calcRotationQuaternion q (vsub u v) := by
    intro u v
    simp only [rot_eq q _ hq, vsub, vadd]
    apply Vec3.ext' <;> dsimp only <;> ring
  rw [calcNormal_eq, calcNormal_eq, hsub, hsub, C05_cross q hq, C05_dot q hq,
    (C05_linear q hq _ a _).2]

/-- **C08**. For collinear points the computation is 0/0: every component is not a number. -/
theorem C08_collinear (a b c : Vec3 ℝ) (h : ¬ NonCollinear a b c) :
    calcNormal (F := NaNable ℝ) ⟨.num a.x, .num a.y, .num a.z⟩ ⟨.num b.x, .num b.y, .num b.z⟩
      ⟨.num c.x, .num c.y, .num c.z⟩ = ⟨.nan, .nan, .nan⟩ := by
  unfold NonCollinear at h
  push Not at h
  have hx := congrArg Vec3.x h
  have hy := congrArg Vec3.y h
  have hz := congrArg Vec3.z h
  simp only [cross, vsub] at hx hy hz
  simp [calcNormal, FOps.sub, FOps.mul, FOps.add, FOps.div, FOps.sqrt, NaNable.map₂, hx, hy, hz,
    Transc.sqrt]

example : NonCollinear ⟨0, 0, 0⟩ ⟨1, 0, 0⟩ ⟨0, 2, 1⟩ := by
  unfold NonCollinear cross vsub; simp

/-- Rigid motion of a point by a pose -/
noncomputable def posed (pos : Vec3 ℝ) (ori : Quat ℝ) (p : Vec3 ℝ) : Vec3 ℝ :=
  vadd (calcRotationQuaternion ori p) pos

/-- **C09**. The six corners of the body are the images under the pose of six fixed points: the
reference points shifted by half the width along the reference normal. -/
theorem C09_rigid (pos : Vec3 ℝ) (ori : Quat ℝ) (body : Body ℝ) (hq : qnormSq ori ≠ 0) :
    let n := vsmul (1 / 2 * body.width) (calcNormal body.jInit body.bInit body.tInit)
    calcBodyCornerPos pos ori body =
      ⟨posed pos ori (vadd body.jInit n), posed pos ori (vsub body.jInit n),
        posed pos ori (vadd body.bInit n), posed pos ori (vsub body.bInit n),
        posed pos ori (vadd body.tInit n), posed pos ori (vsub body.tInit n)⟩ := by
  intro n
  have hz : ∀ v, vadd (calcRotationQuaternion ori v) ⟨0, 0, 0⟩ = calcRotationQuaternion ori v := by
    intro v; simp [vadd]
  have hn : calcNormal (calcRotationQuaternion ori body.jInit)
      (calcRotationQuaternion ori body.bInit) (calcRotationQuaternion ori body.tInit) =
      calcRotationQuaternion ori (calcNormal body.jInit body.bInit body.tInit) := by
    have := C08_equivariant ori hq ⟨0, 0, 0⟩ body.jInit body.bInit body.tInit
    rwa [hz, hz, hz] at this
  have hrn : calcRotationQuaternion ori n = vsmul (1 / 2 * body.width)
      (calcRotationQuaternion ori (calcNormal body.jInit body.bInit body.tInit)) :=
    (C05_linear ori hq _ n _).2
  have hadd : ∀ v, posed pos ori (vadd v n) =
      vadd (vadd (calcRotationQuaternion ori v) pos) (calcRotationQuaternion ori n) := by
    intro v
    unfold posed
    rw [(C05_linear ori hq v n 0).1]
    unfold vadd; apply Vec3.ext' <;> dsimp only <;> ring
  have hsub : ∀ v, posed pos ori (vsub v n) =
      vsub (vadd (calcRotationQuaternion ori v) pos) (calcRotationQuaternion ori n) := by
    intro v
    have h1 : vsub v n = vadd v (vsmul (-1) n) := by
      unfold vsub vadd vsmul; apply Vec3.ext' <;> dsimp only <;> ring
    unfold posed
    rw [h1, (C05_linear ori hq v _ 0).1, (C05_linear ori hq n n (-1)).2]
    unfold vadd vsub vsmul; apply Vec3.ext' <;> dsimp only <;> ring
  simp only [hadd, hsub, hrn, ← hn]
  unfold calcBodyCornerPos
  simp only [Vec3.addF, Vec3.subF, Vec3.smulF, ex_add, ex_sub, ex_mul, ex_ofRat, vadd, vsub, vsmul]
  push_cast
  rfl

theorem posed_dist (pos : Vec3 ℝ) (ori : Quat ℝ) (hq : qnormSq ori ≠ 0) (p r : Vec3 ℝ) :
    edist3 (posed pos ori p) (posed pos ori r) = edist3 p r := by
  unfold edist3
  have : vsub (posed pos ori p) (posed pos ori r) = calcRotationQuaternion ori (vsub p r) := by
    unfold posed
    simp only [rot_eq ori _ hq, vsub, vadd]
    apply Vec3.ext' <;> dsimp only <;> ring
  rw [this, C05_dot ori hq]

/-- **C09**. The distance between any two of the six corners does not depend on the pose. -/
theorem C09_distances (pos pos' : Vec3 ℝ) (ori ori' : Quat ℝ) (body : Body ℝ)
    (hq : qnormSq ori ≠ 0) (hq' : qnormSq ori' ≠ 0) (f g : Corners ℝ → Vec3 ℝ)
    (hf : f ∈ cornerFns) (hg : g ∈ cornerFns) :
    edist3 (f (calcBodyCornerPos pos ori body)) (g (calcBodyCornerPos pos ori body)) =
      edist3 (f (calcBodyCornerPos pos' ori' body)) (g (calcBodyCornerPos pos' ori' body)) := by
  rw [C09_rigid pos ori body hq, C09_rigid pos' ori' body hq']
  simp only [cornerFns, List.mem_cons, List.not_mem_nil, or_false] at hf hg
  rcases hf with rfl | rfl | rfl | rfl | rfl | rfl <;>
    rcases hg with rfl | rfl | rfl | rfl | rfl | rfl <;>
    simp only [posed_dist _ _ hq, posed_dist _ _ hq']

/-- **C09**. Right and left corners are one body width apart and centred on the posed reference
points. -/
theorem C09_width (pos : Vec3 ℝ) (ori : Quat ℝ) (body : Body ℝ) (hq : qnormSq ori ≠ 0)
    (hb : NonCollinear body.jInit body.bInit body.tInit) (hw : 0 < body.width) :
    let c := calcBodyCornerPos pos ori body
    (edist3 c.jr c.jl = body.width ∧ edist3 c.br c.bl = body.width ∧
      edist3 c.tr c.tl = body.width) ∧
    (vadd c.jr c.jl = vsmul 2 (posed pos ori body.jInit) ∧
      vadd c.br c.bl = vsmul 2 (posed pos ori body.bInit) ∧
      vadd c.tr c.tl = vsmul 2 (posed pos ori body.tInit)) := by
  intro c
  have hc := C09_rigid pos ori body hq
  dsimp only at hc
  set n := vsmul (1 / 2 * body.width) (calcNormal body.jInit body.bInit body.tInit) with hn
  have hd : ∀ v, edist3 (vadd v n) (vsub v n) = body.width := by
    intro v
    unfold edist3
    have h1 : vsub (vadd v n) (vsub v n) =
        vsmul body.width (calcNormal body.jInit body.bInit body.tInit) := by
      rw [hn]; unfold vsub vadd vsmul; apply Vec3.ext' <;> dsimp only <;> ring
    have h2 : ∀ k (u : Vec3 ℝ), dot (vsmul k u) (vsmul k u) = k ^ 2 * dot u u := by
      intro k u; unfold dot vsmul; ring
    rw [h1, h2, (C08_normal _ _ _ hb).1, mul_one, Real.sqrt_sq hw.le]
  have hm : ∀ v, vadd (posed pos ori (vadd v n)) (posed pos ori (vsub v n)) =
      vsmul 2 (posed pos ori v) := by
    intro v
    unfold posed
    simp only [rot_eq ori _ hq, vsub, vadd, vsmul]
    apply Vec3.ext' <;> dsimp only <;> ring
  have hc' : c = _ := hc
  rw [hc']
  simp only [posed_dist _ _ hq, hd, hm, and_self]

/-! ## Movement check -/

theorem cornerDist_eq (a b : Vec3 ℝ) : cornerDist a b = edist3 a b := by
  unfold cornerDist edist3 dot vsub
  simp only [ex_add, ex_sub, ex_mul, ex_sqrt, Transc.sqrt]

/-- Largest displacement of a corner -/
noncomputable def maxMove (pos : Vec3 ℝ) (ori : Quat ℝ) (body : Body ℝ) : ℝ :=
  let f := calcBodyCornerPos body.pos body.ori body
  let c := calcBodyCornerPos pos ori body
  max (max (max (max (max (edist3 f.jr c.jr) (edist3 f.jl c.jl)) (edist3 f.br c.br))
    (edist3 f.bl c.bl)) (edist3 f.tr c.tr)) (edist3 f.tl c.tl)

theorem checkBodyMovement_eq (pos : Vec3 ℝ) (ori : Quat ℝ) (g : Grid ℝ) (body : Body ℝ) :
    checkBodyMovement pos ori g body =
      if maxMove pos ori body < 1 / 2 * min g.cellXY g.cellZ then (false, [])
      else if 2 * min g.cellXY g.cellZ < maxMove pos ori body then (true, [.largeMovement])
      else (true, []) := by
  unfold checkBodyMovement maxMove
  simp only [cornerDist_eq, FOps.maxL, List.foldl_cons, List.foldl_nil, ex_max, ex_min, ex_mul,
    ex_ofRat, ex_lt, decide_eq_true_eq]
  push_cast
  rfl

/-- **C10**. No movement is reported exactly when all six corners moved by less than half of the
smaller cell size. -/
theorem C10_no_movement_iff (pos : Vec3 ℝ) (ori : Quat ℝ) (g : Grid ℝ) (body : Body ℝ) :
    (checkBodyMovement pos ori g body).1 = false ↔
      ∀ f ∈ cornerFns, edist3 (f (calcBodyCornerPos body.pos body.ori body))
        (f (calcBodyCornerPos pos ori body)) < 1 / 2 * min g.cellXY g.cellZ := by
  unfold checkBodyMovement
  simp only [cornerDist_eq, FOps.maxL, List.foldl_cons, List.foldl_nil, ex_max, ex_min, ex_mul,
    ex_ofRat, ex_lt, decide_eq_true_eq, cornerFns, List.mem_cons, List.not_mem_nil, or_false,
    forall_eq_or_imp, forall_eq, max_lt_iff]
  push_cast
  split_ifs with h1 h2
  · simp only [true_iff]
    exact ⟨h1.1.1.1.1.1, h1.1.1.1.1.2, h1.1.1.1.2, h1.1.1.2, h1.1.2, h1.2⟩
  all_goals
    simp only [Bool.true_eq_false, false_iff]
    rintro ⟨a1, a2, a3, a4, a5, a6⟩
    exact h1 ⟨⟨⟨⟨⟨a1, a2⟩, a3⟩, a4⟩, a5⟩, a6⟩

/-- **C10**. The large-movement warning is issued exactly when some corner moved by more than twice
the smaller cell size (cell sizes being positive), and no other warning is. -/
theorem C10_warning_iff (pos : Vec3 ℝ) (ori : Quat ℝ) (g : Grid ℝ) (body : Body ℝ)
    (hc : 0 < min g.cellXY g.cellZ) :
    (checkBodyMovement pos ori g body).2 =
      open Classical in
      if ∃ f ∈ cornerFns, 2 * min g.cellXY g.cellZ <
        edist3 (f (calcBodyCornerPos body.pos body.ori body)) (f (calcBodyCornerPos pos ori body))
      then [.largeMovement] else [] := by
  have key : (∃ f ∈ cornerFns, 2 * min g.cellXY g.cellZ <
        edist3 (f (calcBodyCornerPos body.pos body.ori body)) (f (calcBodyCornerPos pos ori body)))
      ↔ 2 * min g.cellXY g.cellZ < maxMove pos ori body := by
    simp only [maxMove, cornerFns, List.mem_cons, List.not_mem_nil, or_false,
      exists_eq_or_imp, exists_eq_left, lt_max_iff]
    simp only [or_assoc]
  rw [checkBodyMovement_eq]
  simp only [key]
  generalize maxMove pos ori body = m
  split_ifs with h1 h2 h2
  · linarith
  · rfl
  · rfl
  · rfl

/-- **C10**. Repeating the current pose reports no movement and no warning. -/
theorem C10_repeated_pose (g : Grid ℝ) (body : Body ℝ) (hc : 0 < min g.cellXY g.cellZ) :
    checkBodyMovement body.pos body.ori g body = (false, []) := by
  have hz : ∀ v : Vec3 ℝ, edist3 v v = 0 := by intro v; simp [edist3, dot, vsub]
  have h1 := (C10_no_movement_iff body.pos body.ori g body).mpr (by
    intro f _; rw [hz]; positivity)
  have h2 := C10_warning_iff body.pos body.ori g body hc
  rw [if_neg (by rintro ⟨f, _, h⟩; rw [hz] at h; linarith)] at h2
  exact Prod.ext h1 h2

/-- **C10**. A pure translation by `d` reports movement exactly when its length is at least half of
the smaller cell size. -/
theorem C10_translation (g : Grid ℝ) (body : Body ℝ) (d : Vec3 ℝ) (hq : qnormSq body.ori ≠ 0) :
    (checkBodyMovement (vadd body.pos d) body.ori g body).1 = true ↔
      1 / 2 * min g.cellXY g.cellZ ≤ Real.sqrt (dot d d) := by
  have key : ∀ f ∈ cornerFns, edist3 (f (calcBodyCornerPos body.pos body.ori body))
      (f (calcBodyCornerPos (vadd body.pos d) body.ori body)) = Real.sqrt (dot d d) := by
    have hp : ∀ v, edist3 (posed body.pos body.ori v) (posed (vadd body.pos d) body.ori v) =
        Real.sqrt (dot d d) := by
      intro v; unfold edist3 posed; congr 1; unfold dot vsub vadd; ring
    rw [C09_rigid _ _ _ hq, C09_rigid _ _ _ hq]
    intro f hf
    simp only [cornerFns, List.mem_cons, List.not_mem_nil, or_false] at hf
    rcases hf with rfl | rfl | rfl | rfl | rfl | rfl <;> exact hp _
  rw [← Bool.not_eq_false, C10_no_movement_iff]
  constructor
  · intro h
    by_contra hlt
    exact h fun f hf => by rw [key f hf]; exact not_le.mp hlt
  · intro h hall
    have := hall Corners.jr (by simp [cornerFns])
    rw [key _ (by simp [cornerFns])] at this
    linarith

/-- A body whose reference points are not collinear -/
noncomputable def exampleBody : Body ℝ :=
  { kind := .bucket, jInit := ⟨0, 0, 0⟩, bInit := ⟨1, 0, 0⟩, tInit := ⟨0, 2, 1⟩, width := 1
    pos := ⟨3, 1, 2⟩, ori := ⟨1, 1, 0, 0⟩ }

example : qnormSq exampleBody.ori ≠ 0 ∧
    NonCollinear exampleBody.jInit exampleBody.bInit exampleBody.tInit ∧ 0 < exampleBody.width := by
  refine ⟨?_, ?_, ?_⟩
  · simp [exampleBody, qnormSq]
  · unfold NonCollinear cross vsub exampleBody; simp
  · simp [exampleBody]

/-! ## First step -/

/-- `x` is not a number -/
def IsNaN (x : NaNable ℝ) : Prop := x = .nan

theorem nan_op (x y : NaNable ℝ) (h : IsNaN x ∨ IsNaN y) :
    IsNaN (FOps.add x y) ∧ IsNaN (FOps.sub x y) ∧ IsNaN (FOps.mul x y) := by
  unfold IsNaN at *
  rcases h with rfl | rfl
  · exact ⟨rfl, rfl, rfl⟩
  · cases x <;> exact ⟨rfl, rfl, rfl⟩

/-- **C11**. For a body whose orientation is still the all-zero one of the constructor, the movement
check reports movement, without warning, whatever pose is requested. -/
theorem C11_first_step (pos : Vec3 (NaNable ℝ)) (ori : Quat (NaNable ℝ)) (g : Grid (NaNable ℝ))
    (body : Body (NaNable ℝ)) (h : body.ori = ⟨.num 0, .num 0, .num 0, .num 0⟩) :
    checkBodyMovement pos ori g body = (true, []) := by
  have hrot : ∀ p, (calcRotationQuaternion body.ori p) = ⟨.nan, .nan, .nan⟩ := by
    intro p
    rw [h]
    obtain ⟨px, py, pz⟩ := p
    cases px <;> cases py <;> cases pz <;>
      simp [calcRotationQuaternion, multiplyQuaternion, FOps.add, FOps.sub, FOps.mul, FOps.div,
        FOps.neg, FOps.zero, FOps.ofRat, NaNable.map₂, NaNable.map₁]
  have hnan : ∀ x : NaNable ℝ, FOps.sub NaNable.nan x = .nan ∧ FOps.sub x NaNable.nan = .nan ∧
      FOps.add NaNable.nan x = .nan ∧ FOps.mul x NaNable.nan = .nan ∧
      FOps.mul NaNable.nan x = .nan ∧ FOps.add x NaNable.nan = .nan := by
    intro x; cases x <;> exact ⟨rfl, rfl, rfl, rfl, rfl, rfl⟩
  have hsq : FOps.sqrt (NaNable.nan : NaNable ℝ) = .nan := rfl
  have hlt : ∀ x : NaNable ℝ, FOps.lt NaNable.nan x = false ∧ FOps.lt x NaNable.nan = false := by
    intro x; cases x <;> exact ⟨rfl, rfl⟩
  have hmax : ∀ x : NaNable ℝ, FOps.max NaNable.nan x = .nan := by
    intro x; unfold FOps.max; simp [(hlt x).1]
  unfold checkBodyMovement
  have hj : (calcBodyCornerPos body.pos body.ori body).jr.x = .nan := by
    unfold calcBodyCornerPos
    simp only [hrot, Vec3.addF, (hnan _).2.2.1]
  have hd : ∀ n, cornerDist (calcBodyCornerPos body.pos body.ori body).jr n = .nan := by
    intro n
    unfold cornerDist
    rw [hj, (hnan _).1, (hnan _).2.2.2.1, (hnan _).2.2.1, (hnan _).2.2.1, hsq]
  simp only [hd, FOps.maxL, List.foldl_cons, List.foldl_nil, hmax, (hlt _).1, (hlt _).2]
  simp

/-- The hypothesis of `C11_first_step` is what the constructor of `Body` establishes. -/
theorem C11_new_body (kind : BodyKind) (o j b t : List (NaNable ℝ)) (width : NaNable ℝ)
    (body : Body (NaNable ℝ)) (h : mkBody kind o j b t width = .ok body) :
    body.ori = ⟨.num 0, .num 0, .num 0, .num 0⟩ := by
  unfold mkBody at h
  simp only [throw_eq_error] at h
  by_cases a1 : o.length = 3 <;> by_cases a2 : j.length = 3 <;> by_cases a3 : b.length = 3 <;>
    by_cases a4 : t.length = 3 <;>
    simp only [a1, a2, a3, a4, ne_eq, not_true_eq_false, not_false_eq_true, if_true, if_false,
      error_bind, reduceCtorEq] at h
  cases h1 : vecEq j b <;> cases h2 : vecEq j t <;> cases h3 : vecEq b t <;>
    cases h4 : FOps.le width FOps.zero <;>
    simp only [h1, h2, h3, h4, if_true, if_false, error_bind, reduceCtorEq, Bool.false_eq_true] at h
  split at h
  · cases h; simp [FOps.zero, FOps.ofRat]
  · cases h

end Soil

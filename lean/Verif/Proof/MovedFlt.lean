import Verif.Proof.RotAcc
import Verif.Proof.TotalFlt

/-! # Where the soil on the body is taken, in rounded arithmetic -/

set_option linter.unusedSectionVars false
set_option linter.unusedVariables false

namespace Soil

open FOps

variable {R : Rounding} {prec : ℕ} {u : ℚ}

theorem coords_within {a b : Vec3 ℚ} {r : ℚ} (hr : 0 ≤ r) (h : vdist2 a b ≤ r ^ 2) :
    |a.x - b.x| ≤ r ∧ |a.y - b.y| ≤ r ∧ |a.z - b.z| ≤ r := by
  unfold vdist2 dot vsub at h
  dsimp only at h
  refine ⟨abs_le_of_sq_le_sq ?_ hr, abs_le_of_sq_le_sq ?_ hr, abs_le_of_sq_le_sq ?_ hr⟩ <;>
    nlinarith [sq_nonneg (a.x - b.x), sq_nonneg (a.y - b.y), sq_nonneg (a.z - b.z)]

theorem qnormSq_conj (q : Quat ℚ) : qnormSq (qconj q) = qnormSq q := by simp [qnormSq, qconj]

/-- At the same pose a point is where it was. -/
theorem movedWith_same (q : Vec3 ℚ × Quat ℚ) (h : qnormSq q.2 ≠ 0) (p : Vec3 ℚ) : movedWith q q p = p := by
  have hc : qnormSq (qconj q.2) ≠ 0 := by rwa [qnormSq_conj]
  unfold movedWith
  rw [C05_compose _ _ hc h, (C04_laws q.2 q.2 q.2 0).2.2.2.2.2.2.2.2.2]
  have : (⟨qnormSq q.2, 0, 0, 0⟩ : Quat ℚ) = qsmul (qnormSq q.2) qone := by simp [qsmul, qone]
  rw [this, C05_scale qone (by simp [qnormSq, qone]) _ h, C05_identity]
  simp [vadd, vsub]

section

variable (A : Accurate R prec u)

include A

/-- The coordinates of a point in the frame of the body, rotated to a pose -/
theorem carried_err (hu : u ≤ 1 / 500) {q q' : Vec3 (Flt R) × Quat (Flt R)} (h : 0 < qnormSq q.2.exact)
    (h' : 0 < qnormSq q'.2.exact) (g : Grid (Flt R)) (body : Body (Flt R)) (i j : ℤ) (z : Flt R) :
    vdist2 (calcRotationQuaternion q'.2 (calcBodyFramePos i j z g { body with pos := q.1, ori := q.2 })).exact
      (calcRotationQuaternion q'.2.exact (calcRotationQuaternion (qconj q.2.exact)
        (vsub (⟨g.vectX i, g.vectY j, z⟩ : Vec3 (Flt R)).exact q.1.exact))) ≤
      (62 * u) ^ 2 * vdist2 (⟨g.vectX i, g.vectY j, z⟩ : Vec3 (Flt R)).exact q.1.exact := by
  have u0 := A.pos
  set p : Vec3 (Flt R) := ⟨g.vectX i, g.vectY j, z⟩ with hp
  set v0 : Vec3 (Flt R) := p.subF q.1 with hv0
  set inv : Quat (Flt R) := ⟨q.2.q0, FOps.neg q.2.q1, FOps.neg q.2.q2, FOps.neg q.2.q3⟩ with hinv
  have hf : calcBodyFramePos i j z g { body with pos := q.1, ori := q.2 } = calcRotationQuaternion inv v0 := rfl
  have ei : inv.exact = qconj q.2.exact := rfl
  rw [hf]
  set e := calcRotationQuaternion inv v0 with he
  set d := vsub p.exact q.1.exact with hd
  have D0 : 0 ≤ vdist2 p.exact q.1.exact := by
    unfold vdist2 dot
    nlinarith [mul_self_nonneg (vsub p.exact q.1.exact).x, mul_self_nonneg (vsub p.exact q.1.exact).y, mul_self_nonneg (vsub p.exact q.1.exact).z]
  have hdd : dot d d = vdist2 p.exact q.1.exact := rfl
  set D := vdist2 p.exact q.1.exact with hD
  have hi : 0 < qnormSq inv.exact := by rw [ei, qnormSq_conj]; exact h
  have a1 : vdist2 v0.exact d ≤ u ^ 2 * D := by
    have one : ∀ t : ℚ, (R.rnd t - t) ^ 2 ≤ u ^ 2 * t ^ 2 := by
      intro t
      have k := pow_le_pow_left₀ (abs_nonneg _) (A.rel t) 2
      rwa [sq_abs, mul_pow, sq_abs] at k
    have h1 := one (p.x.val - q.1.x.val)
    have h2 := one (p.y.val - q.1.y.val)
    have h3 := one (p.z.val - q.1.z.val)
    have e1 : vdist2 v0.exact d = (R.rnd (p.x.val - q.1.x.val) - (p.x.val - q.1.x.val)) * (R.rnd (p.x.val - q.1.x.val) - (p.x.val - q.1.x.val)) +
      (R.rnd (p.y.val - q.1.y.val) - (p.y.val - q.1.y.val)) * (R.rnd (p.y.val - q.1.y.val) - (p.y.val - q.1.y.val)) +
      (R.rnd (p.z.val - q.1.z.val) - (p.z.val - q.1.z.val)) * (R.rnd (p.z.val - q.1.z.val) - (p.z.val - q.1.z.val)) := rfl
    have e2 : D = (p.x.val - q.1.x.val) * (p.x.val - q.1.x.val) + (p.y.val - q.1.y.val) * (p.y.val - q.1.y.val) +
      (p.z.val - q.1.z.val) * (p.z.val - q.1.z.val) := rfl
    rw [e1, e2]
    linarith
  have a2 : dot v0.exact v0.exact ≤ (u + 1) ^ 2 * D := dot_tri u0 zero_le_one D0 a1 (by rw [hdd]; linarith)
  have b1 : vdist2 e.exact (calcRotationQuaternion (qconj q.2.exact) v0.exact) ≤ (29 * u * (u + 1)) ^ 2 * D := by
    have k := rot_err A hu inv hi v0
    rw [ei] at k
    refine k.trans ?_
    have := mul_le_mul_of_nonneg_left a2 (by positivity : 0 ≤ (29 * u) ^ 2)
    refine this.trans (le_of_eq ?_)
    ring
  have b2 : vdist2 (calcRotationQuaternion (qconj q.2.exact) v0.exact) (calcRotationQuaternion (qconj q.2.exact) d) ≤ u ^ 2 * D := by
    rw [rot_dist (by rw [← ei]; exact hi.ne')]
    exact a1
  set e0 := calcRotationQuaternion (qconj q.2.exact) d with he0
  have b3 : vdist2 e.exact e0 ≤ (31 * u) ^ 2 * D := by
    refine (vdist2_tri (by positivity) u0 D0 b1 b2).trans (mul_le_mul_of_nonneg_right ?_ D0)
    refine pow_le_pow_left₀ (by positivity) ?_ 2
    nlinarith
  have b4 : dot e0 e0 = D := by rw [he0, C05_dot _ (by rw [← ei]; exact hi.ne'), hdd]
  have b5 : dot e.exact e.exact ≤ (31 * u + 1) ^ 2 * D := dot_tri (by positivity) zero_le_one D0 b3 (by rw [b4]; linarith)
  have c1 : vdist2 (calcRotationQuaternion q'.2 e).exact (calcRotationQuaternion q'.2.exact e.exact) ≤
      (29 * u * (31 * u + 1)) ^ 2 * D := by
    refine (rot_err A hu q'.2 h' e).trans ?_
    have := mul_le_mul_of_nonneg_left b5 (by positivity : 0 ≤ (29 * u) ^ 2)
    refine this.trans (le_of_eq ?_)
    ring
  have c2 : vdist2 (calcRotationQuaternion q'.2.exact e.exact) (calcRotationQuaternion q'.2.exact e0) ≤ (31 * u) ^ 2 * D := by
    rw [rot_dist h'.ne']
    exact b3
  refine (vdist2_tri (by positivity) (by linarith) D0 c1 c2).trans (mul_le_mul_of_nonneg_right ?_ D0)
  refine pow_le_pow_left₀ (by positivity) ?_ 2
  nlinarith

theorem Accurate.shift {m m0 p r : ℚ} (hu : u ≤ 1 / 500) (hr : 0 ≤ r) (h : |m - m0| ≤ 62 * u * r) :
    |R.rnd (m + p) - (m0 + p)| ≤ u * (63 * r + |m0 + p|) := by
  have u0 := A.pos
  have k := A.rel (m + p)
  have k1 : |m + p| ≤ |m0 + p| + 62 * u * r := by
    have : m + p = (m - m0) + (m0 + p) := by ring
    rw [this]
    have := abs_add_le (m - m0) (m0 + p)
    linarith
  have e : R.rnd (m + p) - (m0 + p) = (R.rnd (m + p) - (m + p)) + (m - m0) := by ring
  rw [e]
  have k2 := abs_add_le (R.rnd (m + p) - (m + p)) (m - m0)
  have k3 := mul_le_mul_of_nonneg_left k1 u0
  have : 0 ≤ u * r := mul_nonneg u0 hr
  nlinarith

/-- Where a point of the body is taken -/
theorem moved_err (hu : u ≤ 1 / 500) {q q' : Vec3 (Flt R) × Quat (Flt R)} (h : 0 < qnormSq q.2.exact)
    (h' : 0 < qnormSq q'.2.exact) (g : Grid (Flt R)) (body : Body (Flt R)) (i j : ℤ) (z : Flt R) {r : ℚ} (hr : 0 ≤ r)
    (hn : vdist2 (⟨g.vectX i, g.vectY j, z⟩ : Vec3 (Flt R)).exact q.1.exact ≤ r ^ 2) :
    let E := movedWith (q.1.exact, q.2.exact) (q'.1.exact, q'.2.exact) (⟨g.vectX i, g.vectY j, z⟩ : Vec3 (Flt R)).exact
    let m := (calcRotationQuaternion q'.2 (calcBodyFramePos i j z g { body with pos := q.1, ori := q.2 })).addF q'.1
    |m.x.val - E.x| ≤ u * (63 * r + |E.x|) ∧ |m.y.val - E.y| ≤ u * (63 * r + |E.y|) ∧ |m.z.val - E.z| ≤ u * (63 * r + |E.z|) := by
  have u0 := A.pos
  have k := carried_err A hu h h' g body i j z
  have k2 : vdist2 _ _ ≤ (62 * u * r) ^ 2 := k.trans (by
    have := mul_le_mul_of_nonneg_left hn (by positivity : 0 ≤ (62 * u) ^ 2)
    linarith)
  obtain ⟨c1, c2, c3⟩ := coords_within (by positivity) k2
  exact ⟨A.shift hu hr c1, A.shift hu hr c2, A.shift hu hr c3⟩

/-- The column computed for a point -/
theorem column_near {B : ℤ} (hB : Small prec u B) {c : Flt R} (hc : 0 < c.val) {half : ℤ} (h2 : 2 ≤ half) (hh : 2 * half ≤ B)
    {x : Flt R} {E : ℚ} (hx : |x.val - E| ≤ c.val / 16) (hE : |E| ≤ half * c.val) :
    ∃ k : ℤ, castInt (FOps.round (FOps.add (FOps.div x c) (FOps.ofInt half))) = .ok k ∧ |(k : ℚ) - (E / c.val + half)| < 5 / 8 := by
  have u0 := A.pos
  have hdig := hB.digits
  have tiny := hB.tiny u0
  have hq : (2 : ℚ) ≤ half := by exact_mod_cast h2
  have hq' : 2 * (half : ℚ) ≤ B := by exact_mod_cast hh
  have t : u ≤ 1 / 384 := by nlinarith
  have t2 : u * half ≤ 1 / 192 := by nlinarith
  have a1 : |x.val / c.val - E / c.val| ≤ 1 / 16 := by
    rw [← sub_div, abs_div, abs_of_pos hc, div_le_iff₀ hc]; linarith
  have a2 : |E / c.val| ≤ half := by rw [abs_div, abs_of_pos hc, div_le_iff₀ hc]; exact hE
  have a3 : |x.val / c.val| ≤ half + 1 / 16 := by
    have : x.val / c.val = (x.val / c.val - E / c.val) + E / c.val := by ring
    rw [this]
    have := abs_add_le (x.val / c.val - E / c.val) (E / c.val)
    linarith
  have b1 : |R.rnd (x.val / c.val) - x.val / c.val| ≤ 1 / 100 := by
    refine (A.rel _).trans ((mul_le_mul_of_nonneg_left a3 u0).trans ?_)
    linarith
  have e0 := A.binary.nat half (by rw [abs_le]; constructor <;> omega)
  have b2 : |R.rnd (x.val / c.val) + half| ≤ 2 * half + 1 := by
    have : R.rnd (x.val / c.val) + half = (R.rnd (x.val / c.val) - x.val / c.val) + (x.val / c.val) + half := by ring
    rw [this]
    have k1 := abs_add_le ((R.rnd (x.val / c.val) - x.val / c.val) + (x.val / c.val)) half
    have k2 := abs_add_le (R.rnd (x.val / c.val) - x.val / c.val) (x.val / c.val)
    have k3 : |(half : ℚ)| = half := abs_of_nonneg (by linarith)
    linarith
  set y := R.rnd (R.rnd (x.val / c.val) + R.rnd half) with hy
  have b3 : |y - (R.rnd (x.val / c.val) + half)| ≤ 2 / 100 := by
    rw [hy, e0]
    refine (A.rel _).trans ((mul_le_mul_of_nonneg_left b2 u0).trans ?_)
    linarith
  have b4 : |y - (E / c.val + half)| < 1 / 8 := by
    have : y - (E / c.val + half) = (y - (R.rnd (x.val / c.val) + half)) + (R.rnd (x.val / c.val) - x.val / c.val) +
      (x.val / c.val - E / c.val) := by ring
    rw [this]
    have k1 := abs_add_le ((y - (R.rnd (x.val / c.val) + half)) + (R.rnd (x.val / c.val) - x.val / c.val)) (x.val / c.val - E / c.val)
    have k2 := abs_add_le (y - (R.rnd (x.val / c.val) + half)) (R.rnd (x.val / c.val) - x.val / c.val)
    linarith
  have b5 := abs_roundAway_sub_le y
  have b6 : |(roundAway y : ℚ) - (E / c.val + half)| < 5 / 8 := by
    have : (roundAway y : ℚ) - (E / c.val + half) = ((roundAway y : ℚ) - y) + (y - (E / c.val + half)) := by ring
    rw [this]
    have := abs_add_le ((roundAway y : ℚ) - y) (y - (E / c.val + half))
    linarith
  refine ⟨roundAway y, ?_, b6⟩
  show castInt (F := Flt R) (((roundAway y : ℤ) : ℚ) : Flt R) = .ok (roundAway y)
  refine castInt_int _ ?_
  have hint := hB.int
  obtain ⟨l1, l2⟩ := abs_lt.mp b6
  obtain ⟨l3, l4⟩ := abs_le.mp a2
  have : (roundAway y : ℚ) < ((2 * half + 1 : ℤ) : ℚ) := by push_cast; linarith
  have m1 : roundAway y < 2 * half + 1 := by exact_mod_cast this
  have : ((-1 : ℤ) : ℚ) < roundAway y := by push_cast; linarith
  have m2 : -1 < roundAway y := by exact_mod_cast this
  rw [abs_lt]; constructor <;> omega

end

/-! ## The records after the movement -/

section

variable {F : Type} [FOps F]

theorem searchWall_loc (s : SimOut F) (z md : F) (iN jN : ℤ) (ds : List (ℤ × ℤ)) (c : Closest F) (P : ℤ → ℤ → Prop)
    (hd : ∀ d ∈ ds, P (iN + d.1) (jN + d.2)) (hc : ∀ y, c.loc = some y → P y.2.1 y.2.2) :
    Post (searchWall s z md iN jN ds c) fun r => (∀ y, r = .inl y → P y.2.1 y.2.2) ∧
      ∀ c' y, r = .inr c' → c'.loc = some y → P y.2.1 y.2.2 := by
  have step : ∀ k a b (x : Closest F), P a b → (∀ y, x.loc = some y → P y.2.1 y.2.2) →
      ∀ u, tryLayer s z md k a b x = some u → ∀ y, u.loc = some y → P y.2.1 y.2.2 := by
    intro k a b x hg hx u hu y hy
    unfold tryLayer at hu
    dsimp only at hu
    split_ifs at hu
    · cases hu; exact hx y hy
    · cases hu; cases hy; exact hg
    · cases hu; exact hx y hy
  induction ds generalizing c with
  | nil =>
    rintro r ⟨⟩
    exact ⟨fun y hy => (by cases hy), fun u y hu hy => (by cases hu; exact hc y hy)⟩
  | cons d ds ih =>
    unfold searchWall
    refine Post.guard fun _ => ?_
    have hp := hd d List.mem_cons_self
    cases h1 : tryLayer s z md 0 (iN + d.1) (jN + d.2) c with
    | none =>
      rintro r ⟨⟩
      exact ⟨fun y hy => (by cases hy; exact hp), fun u y hu => (by cases hu)⟩
    | some c1 =>
      have n1 := step _ _ _ _ hp hc _ h1
      dsimp only
      cases h2 : tryLayer s z md 2 (iN + d.1) (jN + d.2) c1 with
      | none =>
        rintro r ⟨⟩
        exact ⟨fun y hy => (by cases hy; exact hp), fun u y hu => (by cases hu)⟩
      | some c2 => exact ih _ (fun x hx => hd x (List.mem_cons_of_mem _ hx)) (step _ _ _ _ hp n1 _ h2)

/-- A record after the movement of one entry: an older one, or one next to the computed column -/
theorem updateEntry_near {pos : Vec3 F} {ori : Quat F} {g : Grid F} {body : Body F} {tol : F} {e : BodySoil F} {w w' : World F}
    (h : updateEntry pos ori g body tol e w = .ok w') : ∀ e' ∈ w'.out.bodySoilPos, e' ∈ w.out.bodySoilPos ∨
      (e'.xb = e.xb ∧ e'.yb = e.yb ∧ e'.zb = e.zb) ∧ ∃ i j : ℤ,
        castInt (FOps.round (FOps.add (FOps.div ((calcRotationQuaternion ori ⟨e.xb, e.yb, e.zb⟩).addF pos).x g.cellXY) (FOps.ofInt g.halfX))) = .ok i ∧
        castInt (FOps.round (FOps.add (FOps.div ((calcRotationQuaternion ori ⟨e.xb, e.yb, e.zb⟩).addF pos).y g.cellXY) (FOps.ofInt g.halfY))) = .ok j ∧
        |e'.ii - i| ≤ 1 ∧ |e'.jj - j| ≤ 1 := by
  unfold updateEntry at h
  by_cases hs : (e.h <ᶠ ofRat (9 / 10) *ᶠ g.cellZ) = true
  · rw [if_pos hs] at h
    cases h
    exact fun e' he => .inl he
  rw [if_neg hs] at h
  dsimp only at h
  obtain ⟨i, hi, h⟩ := bind_eq_ok.mp h
  obtain ⟨j, hj, h⟩ := bind_eq_ok.mp h
  obtain ⟨r, hr, h⟩ := bind_eq_ok.mp h
  obtain ⟨n1, n2⟩ := searchWall_loc _ _ _ i j _ _ (fun a b => |a - i| ≤ 1 ∧ |b - j| ≤ 1) (by
    intro d hd
    have := exploreOrder_near' _ _ d hd
    constructor <;> rw [abs_le] <;> constructor <;> omega) (by intro y hy; cases hy) r hr
  have fin : ∀ (k : ℕ) (a b : ℤ) (hv : F), (|a - i| ≤ 1 ∧ |b - j| ≤ 1) → ∀ e' ∈ (placeOn w.out k a b e hv).bodySoilPos,
      e' ∈ w.out.bodySoilPos ∨ (e'.xb = e.xb ∧ e'.yb = e.yb ∧ e'.zb = e.zb) ∧ ∃ i j : ℤ,
        castInt (FOps.round (FOps.add (FOps.div ((calcRotationQuaternion ori ⟨e.xb, e.yb, e.zb⟩).addF pos).x g.cellXY) (FOps.ofInt g.halfX))) = .ok i ∧
        castInt (FOps.round (FOps.add (FOps.div ((calcRotationQuaternion ori ⟨e.xb, e.yb, e.zb⟩).addF pos).y g.cellXY) (FOps.ofInt g.halfY))) = .ok j ∧
        |e'.ii - i| ≤ 1 ∧ |e'.jj - j| ≤ 1 := by
    intro k a b hv hab e' he
    have he : e' ∈ w.out.bodySoilPos ++ [⟨k, a, b, e.xb, e.yb, e.zb, hv⟩] := he
    rcases List.mem_append.mp he with he | he
    · exact .inl he
    · obtain rfl := List.mem_singleton.mp he
      exact .inr ⟨⟨rfl, rfl, rfl⟩, i, j, hi, hj, hab.1, hab.2⟩
  rcases r with ⟨k, a, b⟩ | c
  · cases h
    exact fin k a b _ (n1 _ rfl)
  · dsimp only at h
    split_ifs at h
    · split at h
      · rename_i k a b hl
        cases h
        exact fin k a b _ (n2 c _ rfl hl)
      · cases h
    · cases h
      exact fun e' he => .inl he

theorem updateEntries_near {pos : Vec3 F} {ori : Quat F} {g : Grid F} {body : Body F} {tol : F} {l : List (BodySoil F)} {w w' : World F}
    (h : updateEntries pos ori g body tol l w = .ok w') : ∀ e' ∈ w'.out.bodySoilPos, e' ∈ w.out.bodySoilPos ∨
      ∃ e ∈ l, (e'.xb = e.xb ∧ e'.yb = e.yb ∧ e'.zb = e.zb) ∧ ∃ i j : ℤ,
        castInt (FOps.round (FOps.add (FOps.div ((calcRotationQuaternion ori ⟨e.xb, e.yb, e.zb⟩).addF pos).x g.cellXY) (FOps.ofInt g.halfX))) = .ok i ∧
        castInt (FOps.round (FOps.add (FOps.div ((calcRotationQuaternion ori ⟨e.xb, e.yb, e.zb⟩).addF pos).y g.cellXY) (FOps.ofInt g.halfY))) = .ok j ∧
        |e'.ii - i| ≤ 1 ∧ |e'.jj - j| ≤ 1 := by
  induction l generalizing w with
  | nil => cases h; exact fun e' he => .inl he
  | cons e l ih =>
    unfold updateEntries at h
    obtain ⟨w1, h1, h2⟩ := bind_eq_ok.mp h
    intro e' he
    rcases ih h2 e' he with he | ⟨e1, k1, k2⟩
    · rcases updateEntry_near h1 e' he with he | k
      · exact .inl he
      · exact .inr ⟨e, List.mem_cons_self, k⟩
    · exact .inr ⟨e1, List.mem_cons_of_mem _ k1, k2⟩

end

end Soil

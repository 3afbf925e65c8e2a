import Verif.Proof.MovedFlt
import Verif.Proof.ExampleRun

/-! # Property C67: rotations, and the places where the body takes its soil, in rounded arithmetic

`Vec3.exact` and `Quat.exact` (Spec/Exact.lean) are the rational numbers the rounded numbers stand for; on them
`calcRotationQuaternion` is the exact rotation characterised by C05, and `movedWith q q' p` is the exact place of a point
`p` fixed to the body after its movement from `q` to `q'`. -/

namespace Soil

open FOps

section Rounded

variable {R : Rounding} {prec : ℕ} {u : ℚ}

/-- What is used of the arithmetic -/
theorem accurate_of (hR : R.rnd = roundBinary prec) (hp : 1 ≤ prec) (hu : 2 ^ (-(prec : ℤ)) ≤ u) (hu' : u ≤ 1 / 500)
    (hs : SqrtAccurate R u) : Accurate R prec u := by
  refine ⟨hR ▸ roundBinary_binary hp, fun x => ?_, (two_zpow_pos _).le.trans hu, by linarith, hs⟩
  rw [hR]
  exact (roundBinary_rel hp x).trans (mul_le_mul_of_nonneg_right hu (abs_nonneg x))

/-- **C67** (rotation). A vector rotated in rounded arithmetic is within `29 u` times its length of the exactly rotated vector,
for every orientation other than zero, normalised or not. -/
theorem C67_rotation (hR : R.rnd = roundBinary prec) (hp : 1 ≤ prec) (hu : 2 ^ (-(prec : ℤ)) ≤ u) (hu' : u ≤ 1 / 500)
    (hs : SqrtAccurate R u) (q : Quat (Flt R)) (hq : q.exact ≠ ⟨0, 0, 0, 0⟩) (v : Vec3 (Flt R)) :
    vdist2 (calcRotationQuaternion q v).exact (calcRotationQuaternion q.exact v.exact) ≤ (29 * u) ^ 2 * dot v.exact v.exact := by
  refine rot_err (accurate_of hR hp hu hu' hs) hu' q ?_ v
  by_contra hn
  refine hq ?_
  unfold qnormSq at hn
  generalize q.exact = Q at *
  obtain ⟨a, b, c, d⟩ := Q
  dsimp only at hn
  have h : ∀ x y : ℚ, x ^ 2 + y ≤ 0 → 0 ≤ y → x = 0 := fun x y h1 h2 => pow_eq_zero_iff (two_ne_zero) |>.mp (by nlinarith [sq_nonneg x])
  have ha := h a (b ^ 2 + c ^ 2 + d ^ 2) (by linarith) (by positivity)
  have hb := h b (a ^ 2 + c ^ 2 + d ^ 2) (by linarith) (by positivity)
  have hc := h c (a ^ 2 + b ^ 2 + d ^ 2) (by linarith) (by positivity)
  have hd := h d (a ^ 2 + b ^ 2 + c ^ 2) (by linarith) (by positivity)
  rw [ha, hb, hc, hd]

/-- **C67** (points of the body). A point of the grid at a distance of at most `r` from the body at the pose `q` is stored by
its coordinates in the frame of the body.  Where these coordinates are, as computed for another pose `q'`, each coordinate
differs from that of the exact place by at most `u (63 r + |coordinate|)`. -/
theorem C67_moved (hR : R.rnd = roundBinary prec) (hp : 1 ≤ prec) (hu : 2 ^ (-(prec : ℤ)) ≤ u) (hu' : u ≤ 1 / 500)
    (hs : SqrtAccurate R u) {q q' : Vec3 (Flt R) × Quat (Flt R)} (h : 0 < qnormSq q.2.exact) (h' : 0 < qnormSq q'.2.exact)
    (g : Grid (Flt R)) (body : Body (Flt R)) (i j : ℤ) (z : Flt R) {r : ℚ} (hr : 0 ≤ r)
    (hn : vdist2 (⟨g.vectX i, g.vectY j, z⟩ : Vec3 (Flt R)).exact q.1.exact ≤ r ^ 2) :
    let E := movedWith (q.1.exact, q.2.exact) (q'.1.exact, q'.2.exact) (⟨g.vectX i, g.vectY j, z⟩ : Vec3 (Flt R)).exact
    let m := (calcRotationQuaternion q'.2 (calcBodyFramePos i j z g { body with pos := q.1, ori := q.2 })).addF q'.1
    |m.x.val - E.x| ≤ u * (63 * r + |E.x|) ∧ |m.y.val - E.y| ≤ u * (63 * r + |E.y|) ∧ |m.z.val - E.z| ≤ u * (63 * r + |E.z|) :=
  moved_err (accurate_of hR hp hu hu' hs) hu' h h' g body i j z hr hn

/-- `movedWith` keeps the coordinates in the frame of the body. -/
theorem C67_movedWith {q q' : Vec3 ℚ × Quat ℚ} (h' : qnormSq q'.2 ≠ 0) (p : Vec3 ℚ) :
    calcRotationQuaternion (qconj q'.2) (vsub (movedWith q q' p) q'.1) = calcRotationQuaternion (qconj q.2) (vsub p q.1) := by
  have hc : qnormSq (qconj q'.2) ≠ 0 := by rwa [qnormSq_conj]
  have e : vsub (movedWith q q' p) q'.1 = calcRotationQuaternion q'.2 (calcRotationQuaternion (qconj q.2) (vsub p q.1)) := by
    unfold movedWith
    simp [vadd, vsub]
  rw [e, C05_compose _ _ h' hc]
  have k := (C04_laws (qconj q'.2) q'.2 q'.2 0).2.2.2.2.2.2.2.2.2
  have k' : qconj (qconj q'.2) = q'.2 := by simp [qconj]
  rw [k', qnormSq_conj] at k
  have : (⟨qnormSq q'.2, 0, 0, 0⟩ : Quat ℚ) = qsmul (qnormSq q'.2) qone := by simp [qsmul, qone]
  rw [k, this, C05_scale qone (by simp [qnormSq, qone]) _ h', C05_identity]

variable {B H : ℤ} {g : Grid (Flt R)} {p : SimParam (Flt R)}

/-- **C67** (columns). The column computed by `UpdateBodySoil` for a stored point exists, and its centre is within 5/8 of a
cell of the exact place of the point, in each direction. -/
theorem C67_column (hR : R.rnd = roundBinary prec) (hu : 2 ^ (-(prec : ℤ)) ≤ u) (hs : SqrtAccurate R u) (P : PoseSetup prec u B H g p)
    {q q' : Vec3 (Flt R) × Quat (Flt R)} (h : 0 < qnormSq q.2.exact) (h' : 0 < qnormSq q'.2.exact) (body : Body (Flt R))
    (i j : ℤ) (z : Flt R) {r : ℚ} (hw : CarriedWithin u r g q q' ⟨g.vectX i, g.vectY j, z⟩) :
    let E := movedWith (q.1.exact, q.2.exact) (q'.1.exact, q'.2.exact) (⟨g.vectX i, g.vectY j, z⟩ : Vec3 (Flt R)).exact
    let m := (calcRotationQuaternion q'.2 (calcBodyFramePos i j z g { body with pos := q.1, ori := q.2 })).addF q'.1
    (∃ k : ℤ, castInt (FOps.round (FOps.add (FOps.div m.x g.cellXY) (FOps.ofInt g.halfX))) = .ok k ∧
      |(k : ℚ) - (E.x / g.cellXY.val + g.halfX)| < 5 / 8) ∧
    ∃ k : ℤ, castInt (FOps.round (FOps.add (FOps.div m.y g.cellXY) (FOps.ofInt g.halfY))) = .ok k ∧
      |(k : ℚ) - (E.y / g.cellXY.val + g.halfY)| < 5 / 8 := by
  have A := P.accurate hR hu hs
  have u0 := A.pos
  obtain ⟨e1, e2, -⟩ := moved_err A (P.fine A) h h' g body i j z hw.radius hw.near
  refine ⟨column_near A P.small P.cellXY P.halfX P.halfX' (e1.trans (le_trans ?_ hw.fine.1)) hw.x,
    column_near A P.small P.cellXY P.halfY P.halfY' (e2.trans (le_trans ?_ hw.fine.2)) hw.y⟩
  · exact mul_le_mul_of_nonneg_left (by linarith [hw.x]) u0
  · exact mul_le_mul_of_nonneg_left (by linarith [hw.y]) u0

/-- **C67** (same place). If the movement of the body takes the centre of column `(i, j)` to within 3/8 of a cell of
the centre of column `(i', j')`, the column computed for soil stored there is `(i', j')`.  In particular, at the pose at which it was
stored, soil is where it was. -/
theorem C67_same (hR : R.rnd = roundBinary prec) (hu : 2 ^ (-(prec : ℤ)) ≤ u) (hs : SqrtAccurate R u) (P : PoseSetup prec u B H g p)
    {q q' : Vec3 (Flt R) × Quat (Flt R)} (h : 0 < qnormSq q.2.exact) (h' : 0 < qnormSq q'.2.exact) (body : Body (Flt R))
    (i j i' j' : ℤ) (z : Flt R) {r : ℚ} (hw : CarriedWithin u r g q q' ⟨g.vectX i, g.vectY j, z⟩)
    (hx : |(movedWith (q.1.exact, q.2.exact) (q'.1.exact, q'.2.exact) (⟨g.vectX i, g.vectY j, z⟩ : Vec3 (Flt R)).exact).x / g.cellXY.val
      + g.halfX - i'| ≤ 3 / 8)
    (hy : |(movedWith (q.1.exact, q.2.exact) (q'.1.exact, q'.2.exact) (⟨g.vectX i, g.vectY j, z⟩ : Vec3 (Flt R)).exact).y / g.cellXY.val
      + g.halfY - j'| ≤ 3 / 8) :
    let m := (calcRotationQuaternion q'.2 (calcBodyFramePos i j z g { body with pos := q.1, ori := q.2 })).addF q'.1
    castInt (FOps.round (FOps.add (FOps.div m.x g.cellXY) (FOps.ofInt g.halfX))) = .ok i' ∧
    castInt (FOps.round (FOps.add (FOps.div m.y g.cellXY) (FOps.ofInt g.halfY))) = .ok j' := by
  obtain ⟨⟨k, k1, k2⟩, l, l1, l2⟩ := C67_column hR hu hs P h h' body i j z hw
  have same : ∀ {k i : ℤ} {x : ℚ}, |(k : ℚ) - x| < 5 / 8 → |x - i| ≤ 3 / 8 → k = i := by
    intro k i x h1 h2
    obtain ⟨a, b⟩ := abs_lt.mp h1
    obtain ⟨c, d⟩ := abs_le.mp h2
    have e1 : (k : ℚ) < ((i + 1 : ℤ) : ℚ) := by push_cast; linarith
    have e2 : ((i - 1 : ℤ) : ℚ) < k := by push_cast; linarith
    have e1 : k < i + 1 := by exact_mod_cast e1
    have e2 : i - 1 < k := by exact_mod_cast e2
    omega
  exact ⟨by rw [k1, same k2 hx], by rw [l1, same l2 hy]⟩

/-- **C67** (the pose at which it was stored). There, soil is in the column where it was, at its height up to `u (63 r + |z|)`. -/
theorem C67_back (hR : R.rnd = roundBinary prec) (hu : 2 ^ (-(prec : ℤ)) ≤ u) (hs : SqrtAccurate R u) (P : PoseSetup prec u B H g p)
    {q : Vec3 (Flt R) × Quat (Flt R)} (h : 0 < qnormSq q.2.exact) (body : Body (Flt R))
    (i j : ℤ) (z : Flt R) {r : ℚ} (hw : CarriedWithin u r g q q ⟨g.vectX i, g.vectY j, z⟩)
    (hx : |(g.vectX i).val / g.cellXY.val + g.halfX - i| ≤ 3 / 8) (hy : |(g.vectY j).val / g.cellXY.val + g.halfY - j| ≤ 3 / 8) :
    let m := (calcRotationQuaternion q.2 (calcBodyFramePos i j z g { body with pos := q.1, ori := q.2 })).addF q.1
    castInt (FOps.round (FOps.add (FOps.div m.x g.cellXY) (FOps.ofInt g.halfX))) = .ok i ∧
    castInt (FOps.round (FOps.add (FOps.div m.y g.cellXY) (FOps.ofInt g.halfY))) = .ok j ∧ |m.z.val - z.val| ≤ u * (63 * r + |z.val|) := by
  have A := P.accurate hR hu hs
  have e := movedWith_same (q.1.exact, q.2.exact) h.ne' (⟨g.vectX i, g.vectY j, z⟩ : Vec3 (Flt R)).exact
  obtain ⟨-, -, e3⟩ := moved_err A (P.fine A) h h g body i j z hw.radius hw.near
  rw [e] at e3
  have k := C67_same hR hu hs P h h body i j i j z hw (by rw [e]; exact hx) (by rw [e]; exact hy)
  exact ⟨k.1, k.2, e3⟩

/-- **C67** (no drift). Let `UpdateBodySoil` move the body to the pose `q'`.  Every record of soil on the body afterwards comes from a
record before, with the same coordinates in the frame of the body.  If these were stored for the column `(i, j)` and the height
`z` at any earlier pose `q`, however many movements ago, the centre of the column of the record is within 13/8 of
a cell of the exact place where the body has taken this point: the errors of the movements do not add up. -/
theorem C67_records (hR : R.rnd = roundBinary prec) (hu : 2 ^ (-(prec : ℤ)) ≤ u) (hs : SqrtAccurate R u) (P : PoseSetup prec u B H g p)
    (tol : Flt R) (body body' : Body (Flt R)) {q' : Vec3 (Flt R) × Quat (Flt R)} (h' : 0 < qnormSq q'.2.exact) (w w' : World (Flt R))
    (hup : updateBodySoil q'.1 q'.2 g body tol w = .ok (w', body')) :
    ∀ e' ∈ w'.out.bodySoilPos, ∃ e ∈ w.out.bodySoilPos, (e'.xb = e.xb ∧ e'.yb = e.yb ∧ e'.zb = e.zb) ∧
      ∀ (q : Vec3 (Flt R) × Quat (Flt R)) (b : Body (Flt R)) (i j : ℤ) (z : Flt R) (r : ℚ), 0 < qnormSq q.2.exact →
        (⟨e.xb, e.yb, e.zb⟩ : Vec3 (Flt R)) = calcBodyFramePos i j z g { b with pos := q.1, ori := q.2 } →
        CarriedWithin u r g q q' ⟨g.vectX i, g.vectY j, z⟩ →
        let E := movedWith (q.1.exact, q.2.exact) (q'.1.exact, q'.2.exact) (⟨g.vectX i, g.vectY j, z⟩ : Vec3 (Flt R)).exact
        |(e'.ii : ℚ) - (E.x / g.cellXY.val + g.halfX)| < 13 / 8 ∧ |(e'.jj : ℚ) - (E.y / g.cellXY.val + g.halfY)| < 13 / 8 := by
  unfold updateBodySoil at hup
  dsimp only at hup
  obtain ⟨s1, h1, hup⟩ := bind_eq_ok.mp hup
  obtain ⟨w1, h2, hup⟩ := bind_eq_ok.mp hup
  obtain ⟨rfl, -⟩ : w1 = w' ∧ _ := by
    have : (Except.ok (w1, ({ body with pos := q'.1, ori := q'.2 } : Body (Flt R))) : M _) = .ok (w', body') := hup
    simpa using this
  intro e' he'
  rcases updateEntries_near h2 e' he' with he | ⟨e, he, hf, a, b, ha, hb, n1, n2⟩
  · exact absurd he (List.not_mem_nil)
  refine ⟨e, he, hf, fun q bd i j z r h hst hw => ?_⟩
  rw [hst] at ha hb
  obtain ⟨⟨k, k1, k2⟩, l, l1, l2⟩ := C67_column hR hu hs P h h' bd i j z hw
  obtain rfl : k = a := by simpa using k1.symm.trans ha
  obtain rfl : l = b := by simpa using l1.symm.trans hb
  have add : ∀ {x k : ℤ} {y : ℚ}, |x - k| ≤ 1 → |(k : ℚ) - y| < 5 / 8 → |(x : ℚ) - y| < 13 / 8 := by
    intro x k y h1 h2
    have h1 : |(x : ℚ) - k| ≤ 1 := by exact_mod_cast h1
    have : (x : ℚ) - y = (x - k) + (k - y) := by ring
    rw [this]
    have := abs_add_le ((x : ℚ) - k) (k - y)
    linarith
  exact ⟨add n1 k2, add n2 l2⟩

end Rounded

/-! ## Concrete cases -/

/-- a point of column (8, 6) at the height 1/8, carried from the first pose to the second -/
theorem accWithin : CarriedWithin (2 ^ (-23 : ℤ)) 1 plcGrid plcPose plcPose2 ⟨plcGrid.vectX 8, plcGrid.vectY 6, ((1 / 8 : ℚ) : Flt plcR)⟩ where
  radius := zero_le_one
  near := by decide +kernel
  x := by decide +kernel
  y := by decide +kernel
  fine := by decide +kernel

/-- With 24 binary digits, soil stored for column (8, 6) at a slightly rotated pose is computed to be in column (9, 6) at the next pose,
which is further on and more inclined. -/
example (b : Body (Flt plcR)) :
    let m := (calcRotationQuaternion plcPose2.2 (calcBodyFramePos 8 6 ((1 / 8 : ℚ) : Flt plcR) plcGrid
      { b with pos := plcPose.1, ori := plcPose.2 })).addF plcPose2.1
    castInt (FOps.round (FOps.add (FOps.div m.x plcGrid.cellXY) (FOps.ofInt plcGrid.halfX))) = .ok 9 ∧
    castInt (FOps.round (FOps.add (FOps.div m.y plcGrid.cellXY) (FOps.ofInt plcGrid.halfY))) = .ok 6 :=
  C67_same (R := plcR) (prec := 24) rfl (by norm_num) plcR_sqrt plcSetup (q := plcPose) (q' := plcPose2) (by decide +kernel)
    (by decide +kernel) b 8 6 9 6 _ accWithin (by decide +kernel) (by decide +kernel)

/-- this point in the frame of the body -/
def accPoint : Vec3 (Flt plcR) :=
  calcBodyFramePos 8 6 ((1 / 8 : ℚ) : Flt plcR) plcGrid { plcBody .bucket with pos := plcPose.1, ori := plcPose.2 }

/-- a body layer everywhere, with one cell of soil on it in column (8, 6), stored at the first pose -/
def accWorld : World (Flt plcR) :=
  { plcWorld with out := { plcWorld.out with
      body := fun k _ _ => if k = 1 then ((1 / 8 : ℚ) : Flt plcR) else (0 : ℚ)
      bodySoil := fun k i j => if k = 1 ∧ i = 8 ∧ j = 6 then ((1 / 4 : ℚ) : Flt plcR) else
        if k = 0 ∧ i = 8 ∧ j = 6 then ((1 / 8 : ℚ) : Flt plcR) else (0 : ℚ)
      bodySoilPos := [⟨0, 8, 6, accPoint.x, accPoint.y, accPoint.z, ((1 / 8 : ℚ) : Flt plcR)⟩] } }

/-- The movement to the second pose keeps one record of soil, and its column is near the place where the body has taken the soil. -/
example : ∃ w' b' e', updateBodySoil plcPose2.1 plcPose2.2 plcGrid { plcBody .bucket with pos := plcPose.1, ori := plcPose.2 }
      ((1 / 64 : ℚ) : Flt plcR) accWorld = .ok (w', b') ∧ e' ∈ w'.out.bodySoilPos ∧
    let E := movedWith (plcPose.1.exact, plcPose.2.exact) (plcPose2.1.exact, plcPose2.2.exact)
      (⟨plcGrid.vectX 8, plcGrid.vectY 6, ((1 / 8 : ℚ) : Flt plcR)⟩ : Vec3 (Flt plcR)).exact
    |(e'.ii : ℚ) - (E.x / plcGrid.cellXY.val + plcGrid.halfX)| < 13 / 8 ∧
      |(e'.jj : ℚ) - (E.y / plcGrid.cellXY.val + plcGrid.halfY)| < 13 / 8 := by
  have key : (match updateBodySoil plcPose2.1 plcPose2.2 plcGrid { plcBody .bucket with pos := plcPose.1, ori := plcPose.2 }
      ((1 / 64 : ℚ) : Flt plcR) accWorld with
    | .ok r => decide (r.1.out.bodySoilPos.length = 1)
    | .error _ => false) = true := by decide +kernel
  cases hup : updateBodySoil plcPose2.1 plcPose2.2 plcGrid { plcBody .bucket with pos := plcPose.1, ori := plcPose.2 }
      ((1 / 64 : ℚ) : Flt plcR) accWorld with
  | error e => rw [hup] at key; cases key
  | ok r =>
    rw [hup] at key
    obtain ⟨e', he⟩ := List.length_eq_one_iff.mp (of_decide_eq_true key)
    have hm : e' ∈ r.1.out.bodySoilPos := by rw [he]; exact List.mem_singleton_self _
    refine ⟨r.1, r.2, e', rfl, hm, ?_⟩
    obtain ⟨e, h1, -, h3⟩ := C67_records (R := plcR) (prec := 24) rfl (by norm_num) plcR_sqrt plcSetup _ _ _ (by decide +kernel) _ _ hup e' hm
    obtain rfl := List.mem_singleton.mp h1
    exact h3 plcPose (plcBody .bucket) 8 6 ((1 / 8 : ℚ) : Flt plcR) 1 (by decide +kernel)
      (show accPoint = _ from rfl) accWithin

end Soil

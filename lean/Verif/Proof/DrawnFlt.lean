import Verif.Spec.Drawn
import Verif.Proof.PoseFlt

/-! # The cells of the body in rounded arithmetic are at its vertices -/

namespace Soil

open FOps

section Any

variable {F : Type} [FOps F]

theorem calcLinePos_first {fuel : ℕ} {a b : Vec3 F} {g : Grid F} {r : List Cell3} (h : calcLinePos fuel a b g = .ok r) :
    ∃ t ∈ r, cellOf (toIndex g a) = .ok t := by
  unfold calcLinePos at h
  rcases hi : lineInit (toIndex g a) (toIndex g b) with ⟨c, l⟩
  simp only [hi] at h
  obtain ⟨t, h1, h⟩ := bind_eq_ok.mp h
  obtain ⟨l', h2, h⟩ := bind_eq_ok.mp h
  simp only [pure_eq_ok, Except.ok.injEq] at h
  subst h
  exact ⟨t, by simp, h1⟩

theorem calcRectanglePos_corners {fuel : ℕ} {a b c d : Vec3 F} {g : Grid F} {tol : F} {r : List Cell3}
    (h : calcRectanglePos fuel a b c d g tol = .ok r) :
    ∀ v ∈ [a, b, c, d], ∃ t ∈ r, cellOf (toIndex g v) = .ok t := by
  unfold calcRectanglePos at h
  obtain ⟨x, -, h⟩ := bind_eq_ok.mp h
  obtain ⟨y, -, h⟩ := bind_eq_ok.mp h
  obtain ⟨i1, -, h⟩ := bind_eq_ok.mp h
  obtain ⟨i2, -, h⟩ := bind_eq_ok.mp h
  obtain ⟨l1, h1, h⟩ := bind_eq_ok.mp h
  obtain ⟨l2, h2, h⟩ := bind_eq_ok.mp h
  obtain ⟨l3, h3, h⟩ := bind_eq_ok.mp h
  obtain ⟨l4, h4, h⟩ := bind_eq_ok.mp h
  simp only [pure_eq_ok, Except.ok.injEq] at h
  subst h
  intro v hv
  simp only [List.mem_cons, List.not_mem_nil, or_false] at hv
  rcases hv with rfl | rfl | rfl | rfl
  · obtain ⟨t, k1, k2⟩ := calcLinePos_first h1; exact ⟨t, by simp [k1], k2⟩
  · obtain ⟨t, k1, k2⟩ := calcLinePos_first h2; exact ⟨t, by simp [k1], k2⟩
  · obtain ⟨t, k1, k2⟩ := calcLinePos_first h3; exact ⟨t, by simp [k1], k2⟩
  · obtain ⟨t, k1, k2⟩ := calcLinePos_first h4; exact ⟨t, by simp [k1], k2⟩

theorem calcTrianglePos_corners {fuel : ℕ} {a b c : Vec3 F} {g : Grid F} {tol : F} {r : List Cell3}
    (h : calcTrianglePos fuel a b c g tol = .ok r) :
    ∀ v ∈ [a, b, c], ∃ t ∈ r, cellOf (toIndex g v) = .ok t := by
  unfold calcTrianglePos at h
  obtain ⟨x, -, h⟩ := bind_eq_ok.mp h
  obtain ⟨y, -, h⟩ := bind_eq_ok.mp h
  obtain ⟨i1, -, h⟩ := bind_eq_ok.mp h
  obtain ⟨i2, -, h⟩ := bind_eq_ok.mp h
  obtain ⟨l1, h1, h⟩ := bind_eq_ok.mp h
  obtain ⟨l2, h2, h⟩ := bind_eq_ok.mp h
  obtain ⟨l3, h3, h⟩ := bind_eq_ok.mp h
  simp only [pure_eq_ok, Except.ok.injEq] at h
  subst h
  intro v hv
  simp only [List.mem_cons, List.not_mem_nil, or_false] at hv
  rcases hv with rfl | rfl | rfl
  · obtain ⟨t, k1, k2⟩ := calcLinePos_first h1; exact ⟨t, by simp [k1], k2⟩
  · obtain ⟨t, k1, k2⟩ := calcLinePos_first h2; exact ⟨t, by simp [k1], k2⟩
  · obtain ⟨t, k1, k2⟩ := calcLinePos_first h3; exact ⟨t, by simp [k1], k2⟩

/-- The cell of each vertex is among those of the body. -/
theorem footprint_corners {fuel : ℕ} {g : Grid F} {p : SimParam F} {tol : F} {body : Body F} {q : Vec3 F × Quat F}
    {area : Area} {walls : List (List Cell3)} (h : bodyFootprint fuel g p tol body q = .ok (area, walls)) :
    ∀ v ∈ usedVertices g tol body q, ∃ w ∈ walls, ∃ t ∈ w, cellOf (toIndex g v) = .ok t := by
  unfold bodyFootprint at h
  unfold usedVertices
  cases hk : body.kind with
  | bucket =>
    simp only [hk] at h ⊢
    obtain ⟨x, -, h⟩ := bind_eq_ok.mp h
    obtain ⟨ws, hw, h⟩ := bind_eq_ok.mp h
    simp only [pure_eq_ok, Except.ok.injEq, Prod.mk.injEq] at h
    obtain ⟨-, rfl⟩ := h
    unfold bucketWalls at hw
    obtain ⟨w1, h1, hw⟩ := bind_eq_ok.mp hw
    obtain ⟨w2, h2, hw⟩ := bind_eq_ok.mp hw
    obtain ⟨w3, h3, hw⟩ := bind_eq_ok.mp hw
    obtain ⟨w4, h4, hw⟩ := bind_eq_ok.mp hw
    simp only [pure_eq_ok, Except.ok.injEq] at hw
    subst hw
    have k1 := calcRectanglePos_corners h1
    have k2 := calcRectanglePos_corners h2
    have m1 : w1 ∈ [w1, w2, w3, w4] := by simp
    have m2 : w2 ∈ [w1, w2, w3, w4] := by simp
    intro v hv
    simp only [Corners.toList, List.mem_cons, List.not_mem_nil, or_false] at hv
    rcases hv with e | e | e | e | e | e
    · exact ⟨w2, m2, k2 v (by simp [e])⟩
    · exact ⟨w2, m2, k2 v (by simp [e])⟩
    · exact ⟨w1, m1, k1 v (by simp [e])⟩
    · exact ⟨w1, m1, k1 v (by simp [e])⟩
    · exact ⟨w1, m1, k1 v (by simp [e])⟩
    · exact ⟨w1, m1, k1 v (by simp [e])⟩
  | blade =>
    simp only [hk] at h ⊢
    obtain ⟨x, -, h⟩ := bind_eq_ok.mp h
    obtain ⟨ws, hw, h⟩ := bind_eq_ok.mp h
    simp only [pure_eq_ok, Except.ok.injEq, Prod.mk.injEq] at h
    obtain ⟨-, rfl⟩ := h
    unfold bladeWalls at hw
    obtain ⟨w1, h1, hw⟩ := bind_eq_ok.mp hw
    obtain ⟨w2, h2, hw⟩ := bind_eq_ok.mp hw
    obtain ⟨w3, h3, hw⟩ := bind_eq_ok.mp hw
    obtain ⟨w4, h4, hw⟩ := bind_eq_ok.mp hw
    simp only [pure_eq_ok, Except.ok.injEq] at hw
    subst hw
    have k1 := calcRectanglePos_corners h1
    have k2 := calcRectanglePos_corners h2
    have k3 := calcRectanglePos_corners h3
    have k4 := calcRectanglePos_corners h4
    have m1 : w1 ∈ [w1, w2, w3, w4] := by simp
    have m2 : w2 ∈ [w1, w2, w3, w4] := by simp
    have m3 : w3 ∈ [w1, w2, w3, w4] := by simp
    have m4 : w4 ∈ [w1, w2, w3, w4] := by simp
    intro v hv
    simp only [Corners.toList, List.mem_append, List.mem_cons, List.not_mem_nil, or_false] at hv
    rcases hv with (e | e | e | e | e | e) | e | e | e | e | e | e
    · exact ⟨w1, m1, k1 v (by simp [e])⟩
    · exact ⟨w1, m1, k1 v (by simp [e])⟩
    · exact ⟨w1, m1, k1 v (by simp [e])⟩
    · exact ⟨w1, m1, k1 v (by simp [e])⟩
    · exact ⟨w3, m3, k3 v (by simp [e])⟩
    · exact ⟨w3, m3, k3 v (by simp [e])⟩
    · exact ⟨w2, m2, k2 v (by simp [e])⟩
    · exact ⟨w2, m2, k2 v (by simp [e])⟩
    · exact ⟨w2, m2, k2 v (by simp [e])⟩
    · exact ⟨w2, m2, k2 v (by simp [e])⟩
    · exact ⟨w4, m4, k4 v (by simp [e])⟩
    · exact ⟨w4, m4, k4 v (by simp [e])⟩

end Any

variable {R : Rounding} {prec : ℕ} {u : ℚ} (A : Accurate R prec u)

include A

/-- Error of a horizontal index -/
theorem ixF_err {B : ℤ} (hB : Small prec u B) {c : ℚ} (hc : 0 < c) {half : ℤ} (h2 : 2 ≤ half) (hh : 2 * half ≤ B) {x : ℚ}
    (hx : |x| ≤ ((half : ℚ) - 2) * c) : |ixF R c half x - (x / c + half)| ≤ 1 / 32 := by
  have hdig := hB.digits
  have tiny := hB.tiny A.pos
  have hhq : 2 * (half : ℚ) ≤ B := by exact_mod_cast hh
  have h2q : (2 : ℚ) ≤ half := by exact_mod_cast h2
  have a0 : |x / c| ≤ (half : ℚ) - 2 := by rw [abs_div, abs_of_pos hc, div_le_iff₀ hc]; exact hx
  obtain ⟨l, r⟩ := abs_le.mp a0
  unfold ixF
  rw [A.binary.nat half (by rw [abs_le]; constructor <;> omega)]
  have r1 := A.rle (half - 2) (x := x / c) (by rw [abs_le]; constructor <;> omega) (by push_cast; exact r)
  have l1 := A.rge (-(half - 2)) (x := x / c) (by rw [abs_le]; constructor <;> omega) (by push_cast; linarith)
  push_cast at r1 l1
  have e1 : |R.rnd (x / c) - x / c| ≤ 0 + u * B := A.err (by simp) (by linarith)
  have e2 : |R.rnd (R.rnd (x / c) + half) - (x / c + half)| ≤ u * B + u * B := A.err (by
    rw [add_sub_add_right_eq_sub]
    linarith) (by rw [abs_le]; constructor <;> linarith)
  linarith

/-- The cells of the body are near the rectangle around its vertices. -/
theorem footprint_by {B H : ℤ} {g : Grid (Flt R)} {p : SimParam (Flt R)} (P : PoseSetup prec u B H g p) {tol : Flt R} (htol : 0 ≤ tol.val)
    {body : Body (Flt R)} {q : Vec3 (Flt R) × Quat (Flt R)} (hq : ∀ v ∈ usedVertices g tol body q, VertexFits g H v) (fuel : ℕ) :
    ∃ v l, v :: l = usedVertices g tol body q ∧
      Fine fuel B (bodyFootprint fuel g p tol body q) fun r => ∀ w ∈ r.2, ∀ t ∈ w, (vertexBox g H v l).By t := by
  unfold usedVertices at hq ⊢
  unfold bodyFootprint
  cases hk : body.kind with
  | bucket =>
    simp only [hk] at hq ⊢
    set c := nudge tol (calcBodyCornerPos q.1 q.2 body) with hc
    have hv : ∀ x ∈ c.jr :: [c.jl, c.br, c.bl, c.tr, c.tl], VertexFits g H x := hq
    refine ⟨c.jr, [c.jl, c.br, c.bl, c.tr, c.tl], rfl, ?_⟩
    obtain ⟨area, e1, -⟩ := vertexBox_area P A hv
    rw [e1, ok_bind]
    unfold bucketWalls
    refine Fine.bind (P := fun ws : List (List Cell3) => ∀ w ∈ ws, ∀ t ∈ w,
      (vertexBox g H c.jr [c.jl, c.br, c.bl, c.tr, c.tl]).By t) ?_ fun ws hws => Fine.pure hws
    refine (rect_flt A P hv htol (by simp) (by simp) (by simp) (by simp) fuel).bind fun w1 h1 => ?_
    refine (rect_flt A P hv htol (by simp) (by simp) (by simp) (by simp) fuel).bind fun w2 h2 => ?_
    refine (tri_flt A P hv htol (by simp) (by simp) (by simp) fuel).bind fun w3 h3 => ?_
    refine (tri_flt A P hv htol (by simp) (by simp) (by simp) fuel).bind fun w4 h4 => Fine.pure ?_
    intro w hw
    simp only [List.mem_cons, List.not_mem_nil, or_false] at hw
    rcases hw with rfl | rfl | rfl | rfl
    exacts [h1.2, h2.2, h3.2, h4.2]
  | blade =>
    simp only [hk] at hq ⊢
    set b := nudge tol (bladeBack g (calcBodyCornerPos q.1 q.2 body)) with hb
    set c := nudge tol (calcBodyCornerPos q.1 q.2 body) with hc
    have hv : ∀ x ∈ c.jr :: ([c.jl, c.br, c.bl, c.tr, c.tl] ++ b.toList), VertexFits g H x := hq
    refine ⟨c.jr, [c.jl, c.br, c.bl, c.tr, c.tl] ++ b.toList, rfl, ?_⟩
    obtain ⟨area, e1, -⟩ := vertexBox_area P A hv
    rw [e1, ok_bind]
    unfold bladeWalls
    refine Fine.bind (P := fun ws : List (List Cell3) => ∀ w ∈ ws, ∀ t ∈ w,
      (vertexBox g H c.jr ([c.jl, c.br, c.bl, c.tr, c.tl] ++ b.toList)).By t) ?_ fun ws hws => Fine.pure hws
    refine (rect_flt A P hv htol (by simp) (by simp) (by simp) (by simp) fuel).bind fun w1 h1 => ?_
    refine (rect_flt A P hv htol (by simp [Corners.toList]) (by simp [Corners.toList]) (by simp [Corners.toList])
      (by simp [Corners.toList]) fuel).bind fun w2 h2 => ?_
    refine (rect_flt A P hv htol (by simp) (by simp) (by simp) (by simp) fuel).bind fun w3 h3 => ?_
    refine (rect_flt A P hv htol (by simp [Corners.toList]) (by simp [Corners.toList]) (by simp [Corners.toList])
      (by simp [Corners.toList]) fuel).bind fun w4 h4 => Fine.pure ?_
    intro w hw
    simp only [List.mem_cons, List.not_mem_nil, or_false] at hw
    rcases hw with rfl | rfl | rfl | rfl
    exacts [h1.2, h2.2, h3.2, h4.2]

/-- Layers made of the cells of the body show it at its vertices. -/
theorem Drawn.shown {B H : ℤ} {g : Grid (Flt R)} {p : SimParam (Flt R)} (P : PoseSetup prec u B H g p) {tol : Flt R} (htol : 0 ≤ tol.val)
    (heights : ∀ k, 0 ≤ k → k ≤ 2 * g.halfZ → (g.vectZ k).val = ((1 - g.halfZ + k : ℤ) : ℚ) * g.cellZ.val ∧
      (g.vectZ k -ᶠ g.cellZ).val = ((k - g.halfZ : ℤ) : ℚ) * g.cellZ.val)
    {body : Body (Flt R)} {q : Vec3 (Flt R) × Quat (Flt R)} (hq : ∀ v ∈ usedVertices g tol body q, VertexFits g H v) {fuel : ℕ}
    {area : Area} {walls : List (List Cell3)} (hf : bodyFootprint fuel g p tol body q = .ok (area, walls))
    {s : SimOut (Flt R)} (h : Drawn g walls s) : ShownAt g (usedVertices g tol body q) s := by
  have hxy := P.cellXY
  have hz := P.cellZ
  have tiny := P.small.tiny A.pos
  have p1 := P.height'
  have p2 := P.halfZ'
  have p3 := P.height
  have p4 := P.small.int
  have p5 := P.halfX
  have p6 := P.halfX'
  have p7 := P.halfY
  have p8 := P.halfY'
  -- an error in cells as an error in metres
  have conv : ∀ {c x half m e : ℚ}, 0 < c → |m - (x / c + half)| ≤ e → |x - (m - half) * c| ≤ e * c := by
    intro c x half m e hc h
    have e1 : x - (m - half) * c = -((m - (x / c + half)) * c) := by field_simp; ring
    rw [e1, abs_neg, abs_mul, abs_of_pos hc]
    exact mul_le_mul_of_nonneg_right h hc.le
  refine ⟨fun v hv => ?_, fun l i j hij hl hb => ?_⟩
  · obtain ⟨w, hw, t, ht, hc⟩ := footprint_corners hf v hv
    have V := hq v hv
    have ex := ixF_err A P.small hxy P.halfX P.halfX' V.x
    have ey := ixF_err A P.small hxy P.halfY P.halfY' V.y
    have rx := ixF_range A P.small hxy P.halfX P.halfX' V.x
    have ry := ixF_range A P.small hxy P.halfY P.halfY' V.y
    obtain ⟨ez, z1, z2⟩ := indexZ_flt A P.small (half := g.halfZ) (H := H) (by omega) p3 (by omega) P.cellZ V.z
    set mx := ixF R g.cellXY.val g.halfX v.x.val with hmx
    set my := ixF R g.cellXY.val g.halfY v.y.val with hmy
    set mz := R.rnd (R.rnd (R.rnd (v.z.val / g.cellZ.val) + R.rnd g.halfZ) - R.rnd 1) with hmz
    have bx : (2 * g.halfX : ℚ) ≤ B := by exact_mod_cast p6
    have by' : (2 * g.halfY : ℚ) ≤ B := by exact_mod_cast p8
    have z0' : ((0 : ℤ) : ℚ) ≤ mz := le_trans (by exact_mod_cast (by omega : 0 ≤ g.halfZ - 1 - H)) z1
    have zB : mz ≤ (B : ℤ) := z2.trans (by exact_mod_cast (by omega : g.halfZ - 1 + H ≤ B))
    push_cast at z0'
    have hcell := cellOf_flt (toIndex g v) (L := B) (by omega)
      (show |mx| ≤ B by rw [abs_le]; constructor <;> linarith) (show |my| ≤ B by rw [abs_le]; constructor <;> linarith)
      (show |mz| ≤ B by rw [abs_le]; constructor <;> linarith)
    rw [hcell, Except.ok.injEq] at hc
    have t1 : t.1 = roundAway mx := by rw [← hc]; rfl
    have t2 : t.2.1 = roundAway my := by rw [← hc]; rfl
    have t3 : t.2.2 = ⌈mz⌉ := by rw [← hc]; rfl
    obtain ⟨d1, l, d2, d3, d4, d5⟩ := h.covers w hw t ht
    have k0 : 0 ≤ t.2.2 := by rw [t3]; exact Int.ceil_nonneg z0'
    have k1 : t.2.2 ≤ 2 * g.halfZ := by
      rw [t3]
      refine Int.ceil_le.mpr (z2.trans ?_)
      exact_mod_cast (by omega : g.halfZ - 1 + H ≤ 2 * g.halfZ)
    obtain ⟨f1, f2⟩ := heights _ k0 k1
    have d4' : (s.body l t.1 t.2.1).val ≤ (g.vectZ t.2.2 -ᶠ g.cellZ).val := not_lt.mp (of_decide_eq_false d4)
    have d5' : (g.vectZ t.2.2).val ≤ (s.body (l + 1) t.1 t.2.1).val := not_lt.mp (of_decide_eq_false d5)
    have g1 := Int.le_ceil mz
    have g2 := Int.ceil_lt_add_one mz
    rw [← t3] at g1 g2
    rw [f2] at d4'
    rw [f1] at d5'
    have near : ∀ {x half m : ℚ} {n : ℤ}, n = roundAway m → |m - (x / g.cellXY.val + half)| ≤ 1 / 32 →
        |x - (n - half) * g.cellXY.val| ≤ 9 / 16 * g.cellXY.val := by
      intro x half m n hn hm
      have r := abs_roundAway_sub_le m
      rw [← hn] at r
      refine conv hxy ?_
      have := abs_sub_le (n : ℚ) m (x / g.cellXY.val + half)
      linarith
    have zz := abs_le.mp (conv hz (x := v.z.val) (half := g.halfZ - 1) (m := mz) (e := 1 / 24) (by
      rw [show v.z.val / g.cellZ.val + ((g.halfZ : ℚ) - 1) = g.halfZ - 1 + v.z.val / g.cellZ.val by ring]
      linarith))
    refine ⟨t.1, t.2.1, d1, near t1 ex, near t2 ey, l, d2, d3, d4'.trans ?_, le_trans ?_ (add_le_add_left d5' _)⟩
    · have := mul_le_mul_of_nonneg_right (show ((t.2.2 - g.halfZ : ℤ) : ℚ) ≤ mz - (g.halfZ - 1) by push_cast; linarith) hz.le
      linarith [zz.1, zz.2]
    · have := mul_le_mul_of_nonneg_right (show mz - (g.halfZ - 1) ≤ ((1 - g.halfZ + t.2.2 : ℤ) : ℚ) by push_cast; linarith) hz.le
      linarith [zz.1, zz.2]
  · obtain ⟨v, vs, e, hfin⟩ := footprint_by A P htol hq fuel
    rw [← e] at hq ⊢
    have hby : ∀ w ∈ walls, ∀ t ∈ w, (vertexBox g H v vs).By t := by
      rcases hfin with ⟨h1, -⟩ | ⟨r, h1, h2⟩
      · rw [h1] at hf; cases hf
      · rw [h1, Except.ok.injEq] at hf; rw [hf] at h2; exact h2
    obtain ⟨⟨k, ⟨w, hw, ht⟩, -⟩, -⟩ := h.only l i j hij hl hb
    obtain ⟨⟨b1, b2⟩, ⟨b3, b4⟩, -⟩ := hby w hw _ ht
    have ofx : ∀ y ∈ v.x :: vs.map (·.x), ∃ w ∈ v :: vs, w.x = y := by
      intro y hy
      rw [← List.map_cons (f := fun v : Vec3 (Flt R) => v.x)] at hy
      exact List.mem_map.mp hy
    have ofy : ∀ y ∈ v.y :: vs.map (·.y), ∃ w ∈ v :: vs, w.y = y := by
      intro y hy
      rw [← List.map_cons (f := fun v : Vec3 (Flt R) => v.y)] at hy
      exact List.mem_map.mp hy
    have lo : ∀ {half : ℤ} {x m : ℚ} {n : ℤ}, |m - (x / g.cellXY.val + half)| ≤ 1 / 32 → m - 2 < n →
        x ≤ (n - half + 5 / 2) * g.cellXY.val := by
      intro half x m n h1 h2
      have := (abs_le.mp (conv hxy h1)).2
      have := mul_le_mul_of_nonneg_right (show m - half ≤ n - half + 2 by linarith) hxy.le
      linarith
    have hi : ∀ {half : ℤ} {x m : ℚ} {n : ℤ}, |m - (x / g.cellXY.val + half)| ≤ 1 / 32 → (n : ℚ) < m + 2 →
        (n - half - 5 / 2) * g.cellXY.val ≤ x := by
      intro half x m n h1 h2
      have := (abs_le.mp (conv hxy h1)).1
      have := mul_le_mul_of_nonneg_right (show n - half - 2 ≤ m - half by linarith) hxy.le
      linarith
    obtain ⟨w1, m1, e1⟩ := ofx _ (minL_any _ _)
    obtain ⟨w2, m2, e2⟩ := ofx _ (maxL_any _ _)
    obtain ⟨w3, m3, e3⟩ := ofy _ (minL_any _ _)
    obtain ⟨w4, m4, e4⟩ := ofy _ (maxL_any _ _)
    simp only [vertexBox, ← e1, ← e2, ← e3, ← e4] at b1 b2 b3 b4
    exact ⟨⟨w1, m1, lo (ixF_err A P.small hxy P.halfX P.halfX' (hq _ m1).x) b1⟩,
      ⟨w2, m2, hi (ixF_err A P.small hxy P.halfX P.halfX' (hq _ m2).x) b2⟩,
      ⟨w3, m3, lo (ixF_err A P.small hxy P.halfY P.halfY' (hq _ m3).y) b3⟩,
      ⟨w4, m4, hi (ixF_err A P.small hxy P.halfY P.halfY' (hq _ m4).y) b4⟩⟩

end Soil
